import Verif.Lemmas.SipHash
/-
C11: `siphash.NewWithCDroundsAndHashSize` and its wrappers `New`, `New64`, `New128`,
`NewWithHashSize` under every history of calls.
-/
namespace Verif.Props
open SipHash (impl new toSpec transform defaultRounds hsOf)

/-- SipHash-c-d with key `k`: 8 bytes of output when 8 were asked for, else 16 (the package falls
back to 16 for every other value); 0 rounds means the default 2-4. -/
def siphashSpec (crounds drounds : U32) (hashSize : Int) (k : Bytes) : HashSpec where
  H := Spec.SipHash.siphash (if crounds = 0 then 2 else crounds.toNat) (if drounds = 0 then 4 else drounds.toNat)
    (hashSize != 8) k
  size := if hashSize = 8 then 8 else 16
  blockSize := 8

/-- The constructor fails exactly on keys that are not 16 bytes long. -/
theorem C11_siphash_new (k : Bytes) (hashSize : Int) : new k hashSize = none ↔ k.length ≠ 16 := by
  unfold new; split <;> simp_all

theorem siphash_rounds (n : U32) (d : U32) : (defaultRounds n d).toNat = if n = 0 then d.toNat else n.toNat := by
  unfold defaultRounds; split <;> rfl

theorem siphash_wide (hashSize : Int) : (hsOf hashSize == 16) = (hashSize != 8) := by
  rw [SipHash.hsOf_cases]; by_cases h : hashSize = 8 <;> simp [h]

/-- From any internal state, on histories without `Reset`. -/
theorem siphash_from (c d : U32) (hashSize : Int) (o : SipHash.Digest) (s₀ : SipHash.S)
    (ho : o.Repr 8 (transform (defaultRounds c 2)) s₀ []) :
    RefinesOn NoReset (impl c d hashSize) o
      { H := Spec.SipHash.hashFrom (if c = 0 then 2 else c.toNat) (if d = 0 then 4 else d.toNat) (hashSize != 8) (toSpec s₀),
        size := if hashSize = 8 then 8 else 16, blockSize := 8 } := by
  refine refinesOn_noReset_of_sim _ _ _ (fun o m => o.Repr 8 (transform (defaultRounds c 2)) s₀ m) ho ?_ ?_ ?_
    (fun _ _ _ => rfl)
  · intro o m p h; exact ⟨_, rfl, h.absorb (by omega) p⟩
  · intro o m b h
    refine ⟨o, ?_, h⟩
    simp only [impl]
    rw [SipHash.checkSum_eq (hsOf hashSize) (by rw [SipHash.hsOf_cases]; split <;> simp) _ _
      (SipHash.defaultRounds_ne _ _ (by decide)) s₀ o m h, siphash_rounds, siphash_rounds, siphash_wide]
    rfl
  · intro o m _
    simp only [impl, SipHash.hsOf_cases]
    by_cases h : hashSize = 8 <;> simp [h]

/-- C11 on histories without `Reset`: SipHash-c-d of the bytes written (the full claim, with
`Reset`, fails: see `C11_siphash_reset_violated`). -/
theorem C11_siphash_partial (c d : U32) (hashSize : Int) (k : Bytes) (o : SipHash.Digest)
    (h : new k hashSize = some o) :
    RefinesOn NoReset (impl c d hashSize) o (siphashSpec c d hashSize k) := by
  unfold new at h
  split at h
  · cases h
  · cases h
    have := siphash_from c d hashSize _ _ (.init (f := transform (defaultRounds c 2)) (d :=
      { s := SipHash.keyState (hsOf hashSize) k, x := zeros 8, nx := 0, len := 0 }) ⟨rfl, zeros_length 8, rfl, rfl⟩)
    unfold siphashSpec Spec.SipHash.siphash
    rw [SipHash.keyState_eq, siphash_wide] at this
    exact this

/-- What `Reset` really does: the object goes on from the internal state it is in (the key is not
set up again), for every state `o` and every further history without `Reset`. -/
theorem C11_siphash_reset_continues (c d : U32) (hashSize : Int) (o : SipHash.Digest) :
    RefinesOn NoReset (impl c d hashSize) ((impl c d hashSize).reset o)
      { H := Spec.SipHash.hashFrom (if c = 0 then 2 else c.toNat) (if d = 0 then 4 else d.toNat) (hashSize != 8) (toSpec o.s),
        size := if hashSize = 8 then 8 else 16, blockSize := 8 } :=
  siphash_from c d hashSize _ _ (.init ⟨rfl, zeros_length 8, rfl, rfl⟩)

set_option maxRecDepth 100000 in
/-- `Reset` does not restore the initial state: `Write(8 bytes); Reset; Sum` differs from the
hash of the empty message. -/
theorem C11_siphash_reset_violated : ∃ k o, new k 8 = some o ∧
    ¬ Refines (impl 0 0 8) o (siphashSpec 0 0 8 k) := by
  refine ⟨zeros 16, _, rfl, not_refines [.write (zeros 8), .reset, .sum []] ?_⟩
  decide +kernel

-- Tests (vectors of siphash_test.go); they also meet the hypotheses of the theorems above.
set_option maxRecDepth 100000 in
example : (new (hex "000102030405060708090a0b0c0d0e0f") 8).map (fun o => ((impl 0 0 8).run o
      [.write (hex "00010203040506"), .sum [], .write (hex "0708090a0b0c0d0e0f"), .sum []]).getLast?) =
    some (some (.bytes (hex "db9bc2577fcc2a3f"))) := by decide +kernel
set_option maxRecDepth 100000 in
example : (new (hex "000102030405060708090a0b0c0d0e0f") 16).map (fun o => ((impl 0 0 16).run o
      [.write (hex "000102030405060708090a0b0c0d0e0f10111213"), .sum []]).getLast?) =
    some (some (.bytes (hex "9e25fc833f2290733e9344a5e83839eb"))) := by decide +kernel

end Verif.Props
