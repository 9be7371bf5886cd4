import Verif.Model.Rabin
import Verif.Lemmas.RabinDigest
/-
C21: the Rabin digest is the residue of the message polynomial.
C22: with a window it is a function of the last `window` bytes alone.
-/
namespace Verif.Props
open Polynomial

/-- The contract of `rabin.New(rabin.NewTable(polynomial, w))`: the bytes of the fingerprint of the
window, little end first, as many as the number of bits of the polynomial requires. -/
noncomputable def rabinSpec (polynomial : U64) (w : Int) : HashSpec :=
  { H := fun m => (le64 (Spec.Rabin.fingerprint polynomial.toNat (Spec.Rabin.window w m))).take
      ((polynomial.toNat.size + 7) / 8)
    size := (polynomial.toNat.size + 7) / 8
    blockSize := if 0 < w then w.toNat else 1 }

theorem checkSum_bytes (h : U64) :
    ((List.range 8).map fun i => ((h >>> (i * 8)).setWidth 8 : Byte)) = le64 h := by
  have key : ∀ i, ((h >>> i).setWidth 8 : Byte) = h.extractLsb' i 8 := by
    intro i
    apply BitVec.eq_of_getLsbD_eq
    intro j hj
    simp [hj]
  simp only [List.range, List.range.loop, List.map, key]
  rfl

/-- Every reachable digest holds the fingerprint (simulation used below). -/
theorem rabin_sim (polynomial : U64) (w : Int) :
    Sim Rabin.impl (rabinSpec polynomial w) (Rabin.Repr polynomial.toNat w) where
  write s m p h := ⟨_, rfl, Rabin.write_repr h p⟩
  sum s m b h := by
    refine ⟨s, ?_, h⟩
    show some (s, b ++ Rabin.checkSum s) = _
    unfold Rabin.checkSum
    rw [checkSum_bytes, Rabin.size_eq h, Rabin.hash_eq h]
    rfl
  reset s m h := Rabin.reset_repr h
  size s m h := Rabin.size_eq h
  blockSize s m h := Rabin.blockSize_eq h

/-- `NewTable` panics exactly for polynomials of degree below 8. -/
theorem C21_newTable (polynomial : U64) (w : Int) :
    Rabin.newTable polynomial w = none ↔ polynomial < 256#64 := by
  have hs : polynomial.toNat.size < 9 ↔ polynomial.toNat < 256 := by
    rw [Nat.lt_succ_iff, Nat.size_le]
  rw [BitVec.lt_def]
  unfold Rabin.newTable Rabin.bitLen
  simp only
  by_cases h : polynomial.toNat.size < 9
  · rw [if_pos h]; exact ⟨fun _ => hs.mp h, fun _ => rfl⟩
  · rw [if_neg h]
    constructor
    · intro e; exact absurd e (Option.some_ne_none _)
    · intro e; exact absurd (hs.mpr e) h

/-- Every polynomial `NewTable` accepts, every window, every history of calls. -/
theorem C21_rabin_refines (polynomial : U64) (w : Int) (tab : Rabin.Table)
    (h : Rabin.newTable polynomial w = some tab) :
    Refines Rabin.impl (Rabin.new tab) (rabinSpec polynomial w) :=
  (rabin_sim polynomial w).refines (Rabin.new_repr (Rabin.newTable_ok h))

/-- `Sum64` after every history: the polynomial it denotes *is* the remainder of the message
polynomial (for a windowless table), so no bit is lost in the 64-bit register. -/
theorem C21_rabin_sum64 (polynomial : U64) (w : Int) (hw : w ≤ 0) (tab : Rabin.Table)
    (h : Rabin.newTable polynomial w = some tab) (ops : List Op) (d : Rabin.Digest)
    (hd : Rabin.impl.exec (Rabin.new tab) ops = some d) :
    Spec.Rabin.poly (Rabin.sum64 d).toNat =
      Spec.Rabin.poly (Spec.Rabin.num (msgAfter [] ops)) %ₘ Spec.Rabin.poly polynomial.toNat := by
  have hr := (rabin_sim polynomial w).exec ops _ [] d (Rabin.new_repr (Rabin.newTable_ok h)) hd
  have hlo := hr.ok.lo
  have hf := (hr.nowin (by omega)).2
  exact Rabin.poly_eq_residue (by omega) hf.lt hf.cg

/-- The degree of the fingerprint is below that of the hashing polynomial. -/
theorem C21_rabin_sum64_lt (polynomial : U64) (w : Int) (tab : Rabin.Table)
    (h : Rabin.newTable polynomial w = some tab) (ops : List Op) (d : Rabin.Digest)
    (hd : Rabin.impl.exec (Rabin.new tab) ops = some d) :
    (Rabin.sum64 d).toNat < 2 ^ (polynomial.toNat.size - 1) :=
  Rabin.lt_repr ((rabin_sim polynomial w).exec ops _ [] d (Rabin.new_repr (Rabin.newTable_ok h)) hd)

/-- The windowed `Sum64` is the remainder of the polynomial of the last `w` bytes. -/
theorem C22_rabin_window (polynomial : U64) (w : Int) (hw : 0 < w) (tab : Rabin.Table)
    (h : Rabin.newTable polynomial w = some tab) (ops : List Op) (d : Rabin.Digest)
    (hd : Rabin.impl.exec (Rabin.new tab) ops = some d) :
    Spec.Rabin.poly (Rabin.sum64 d).toNat =
      Spec.Rabin.poly (Spec.Rabin.num
        ((msgAfter [] ops).drop ((msgAfter [] ops).length - w.toNat))) %ₘ Spec.Rabin.poly polynomial.toNat := by
  have hr := (rabin_sim polynomial w).exec ops _ [] d (Rabin.new_repr (Rabin.newTable_ok h)) hd
  have hlo := hr.ok.lo
  obtain ⟨ms, _, W⟩ := hr.win hw
  have := Rabin.poly_eq_residue (by omega) W.fp.lt W.fp.cg
  rw [Rabin.num_lastW w hw] at this
  unfold Spec.Rabin.window at this
  rw [if_pos hw] at this
  exact this

/-- Two histories whose messages end in the same `w` bytes leave the same fingerprint. -/
theorem C22_rabin_history (polynomial : U64) (w : Int) (hw : 0 < w) (tab : Rabin.Table)
    (h : Rabin.newTable polynomial w = some tab) (ops₁ ops₂ : List Op) (d₁ d₂ : Rabin.Digest)
    (h₁ : Rabin.impl.exec (Rabin.new tab) ops₁ = some d₁) (h₂ : Rabin.impl.exec (Rabin.new tab) ops₂ = some d₂)
    (a b t : Bytes) (ht : t.length = w.toNat)
    (e₁ : msgAfter [] ops₁ = a ++ t) (e₂ : msgAfter [] ops₂ = b ++ t) :
    Rabin.sum64 d₁ = Rabin.sum64 d₂ := by
  have r₁ := (rabin_sim polynomial w).exec ops₁ _ [] d₁ (Rabin.new_repr (Rabin.newTable_ok h)) h₁
  have r₂ := (rabin_sim polynomial w).exec ops₂ _ [] d₂ (Rabin.new_repr (Rabin.newTable_ok h)) h₂
  have hwin : ∀ x : Bytes, Spec.Rabin.window w (x ++ t) = t := by
    intro x
    unfold Spec.Rabin.window
    rw [if_pos hw, List.length_append, ht, Nat.add_sub_cancel, List.drop_left]
  unfold Rabin.sum64
  rw [Rabin.hash_eq r₁, Rabin.hash_eq r₂, e₁, e₂, hwin, hwin]

/-- ... equal to the fingerprint a windowless digest computes of those bytes from scratch. -/
theorem C22_rabin_fresh (polynomial : U64) (w : Int) (hw : 0 < w) (tab tab0 : Rabin.Table)
    (h : Rabin.newTable polynomial w = some tab) (h0 : Rabin.newTable polynomial 0 = some tab0)
    (ops : List Op) (d : Rabin.Digest)
    (hd : Rabin.impl.exec (Rabin.new tab) ops = some d)
    (a t : Bytes) (ht : t.length = w.toNat) (e : msgAfter [] ops = a ++ t) :
    Rabin.sum64 d = Rabin.sum64 (Rabin.write (Rabin.new tab0) t) := by
  have r := (rabin_sim polynomial w).exec ops _ [] d (Rabin.new_repr (Rabin.newTable_ok h)) hd
  have r0 := Rabin.write_repr (Rabin.new_repr (Rabin.newTable_ok h0)) t
  have hwin : Spec.Rabin.window w (a ++ t) = t := by
    unfold Spec.Rabin.window
    rw [if_pos hw, List.length_append, ht, Nat.add_sub_cancel, List.drop_left]
  have hwin0 : Spec.Rabin.window 0 ([] ++ t) = t := rfl
  unfold Rabin.sum64
  rw [Rabin.hash_eq r, Rabin.hash_eq r0, e, hwin, hwin0]

/-! Non-vacuity: tables exist, and the model computes (tests, not proofs). -/
example : (Rabin.newTable 0xbfe6b8a5bf378d83#64 64).isSome = true := by
  cases h : Rabin.newTable 0xbfe6b8a5bf378d83#64 64 with
  | some _ => rfl
  | none => exact absurd ((C21_newTable _ _).mp h) (by decide)
/-- `0x0102` mod `x^8+x^4+x^3+x^2+1`: x^8 + x = (x^4+x^3+x^2+1) + x = 0x1f. -/
example : ((Rabin.newTable 0x11d#64 0).map fun t =>
    Rabin.sum64 (Rabin.write (Rabin.write (Rabin.new t) [1#8]) [2#8])) = some 0x1f#64 := by decide +kernel
/-- Window 2: the first byte has left. -/
example : ((Rabin.newTable 0x11d#64 2).map fun t =>
    Rabin.sum64 (Rabin.write (Rabin.write (Rabin.new t) [0x55#8]) [1#8, 2#8])) = some 0x1f#64 := by decide +kernel
example : ((Rabin.newTable 0x11d#64 2).map fun t =>
    Rabin.sum64 (Rabin.write (Rabin.write (Rabin.write (Rabin.new t) [0x55#8]) [1#8]) [2#8])) = some 0x1f#64 := by
  decide +kernel

end Verif.Props
