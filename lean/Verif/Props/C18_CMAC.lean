import Verif.Lemmas.CMAC
/-
C18: package cmac.
-/
namespace Verif.Props
open Verif.CMAC
open Verif.Spec (bxor gfPoly)

/-- `New` accepts exactly the block sizes 8, 16, 32, 64, 128 and tag sizes between 1 and the block size. -/
theorem C18_cmac_new (bs : Nat) (E : Bytes → Bytes) (t : Int) :
    (newWithTagSize bs E t).isSome ↔ (bs = 8 ∨ bs = 16 ∨ bs = 32 ∨ bs = 64 ∨ bs = 128) ∧ 1 ≤ t ∧ t ≤ bs := by
  unfold newWithTagSize
  split
  · simp; omega
  · rename_i h
    have key : (poly bs).isSome ↔ (bs = 8 ∨ bs = 16 ∨ bs = 32 ∨ bs = 64 ∨ bs = 128) := by
      unfold poly
      split
      all_goals first | (simp; done) | (rename_i h1 h2 h3 h4 h5; simp only [Option.isSome_none, Bool.false_eq_true, false_iff]; intro h; rcases h with h | h | h | h | h <;> contradiction)
    rw [← key]
    cases poly bs with
    | none => simp
    | some p => simp; omega

theorem poly_pos {bs p : Nat} (h : poly bs = some p) : 0 < bs ∧ p = gfPoly bs := by
  unfold poly at h
  split at h <;> first | (simp at h; subst h; exact ⟨by omega, rfl⟩) | cases h

/-- For every block size the object computes CMAC with the constant of the field cut down to its low byte: the
full `hash.Hash` contract. -/
theorem C18_cmac_contract (bs : Nat) (E : Bytes → Bytes) (hE : ∀ b, b.length = bs → (E b).length = bs) (t : Int) (d : Cmac)
    (hd : newWithTagSize bs E t = some d) :
    Refines impl d { H := Spec.cmac (gfPoly bs % 256) bs E t.toNat, size := t.toNat, blockSize := bs } := by
  unfold newWithTagSize at hd
  split at hd
  · cases hd
  split at hd
  · cases hd
  rename_i p hp
  obtain ⟨hpos, rfl⟩ := poly_pos hp
  have hL : (E (zeros bs)).length = bs := hE _ (zeros_length _)
  have e0 : double bs (gfPoly bs) (E (zeros bs)) = Spec.dbl (gfPoly bs % 256) (E (zeros bs)) := by
    have := double_eq (gfPoly bs) (E (zeros bs)) (by omega)
    rw [hL] at this; exact this
  have hL0 : (double bs (gfPoly bs) (E (zeros bs))).length = bs := by rw [double_length]; exact hL
  have e1 : double bs (gfPoly bs) (double bs (gfPoly bs) (E (zeros bs))) = Spec.dbl (gfPoly bs % 256) (Spec.dbl (gfPoly bs % 256) (E (zeros bs))) := by
    have := double_eq (gfPoly bs) (double bs (gfPoly bs) (E (zeros bs))) (by omega)
    rw [hL0] at this; rw [this, e0]
  have hL1 : (double bs (gfPoly bs) (double bs (gfPoly bs) (E (zeros bs)))).length = bs := by rw [double_length]; exact hL0
  dsimp only at hd
  have hd' := Option.some.inj hd
  refine Sim.refines (R := fun s m => Rep d s m) ⟨?_, ?_, ?_, ?_, ?_⟩ ?_
  all_goals subst hd'
  · intro s m q h
    have := write_rep (d0 := ⟨bs, E, _, _, _, _, _⟩) hpos hE h q
    exact ⟨_, by show some _ = _; rw [← this.1], this.2⟩
  · intro s m b h
    refine ⟨s, ?_, h⟩
    show some (s, b ++ s.checkSum) = some (s, b ++ Spec.cmac (gfPoly bs % 256) bs E t.toNat m)
    rw [checkSum_eq (d0 := ⟨bs, E, _, _, _, _, _⟩) hpos hE h hL0 hL1]
    unfold Spec.cmac
    rw [Spec.cut_eq bs hpos]
    dsimp only
    rw [← e0]
    rw [e1, ← e0]
    rfl
  · intro s m h; exact reset_rep (d0 := ⟨bs, E, _, _, _, _, _⟩) hpos hE h
  · intro s m h; exact h.tag
  · intro s m h; exact h.bs
  · exact init_rep (d0 := ⟨bs, E, _, _, _, _, _⟩) hpos rfl rfl

/-- The contract of C18 for ciphers with 64-bit and 128-bit blocks (the ones CMAC is standardised for), for every
cipher and every admissible tag size.  Missing: the larger blocks (`C18_cmac_large_violated`). -/
theorem C18_cmac_partial (bs : Nat) (hbs : bs = 8 ∨ bs = 16) (E : Bytes → Bytes) (hE : ∀ b, b.length = bs → (E b).length = bs)
    (t : Nat) (h1 : 1 ≤ t) (h2 : t ≤ bs) :
    ∃ d, newWithTagSize bs E t = some d ∧
      Refines impl d { H := Spec.cmac (gfPoly bs) bs E t, size := t, blockSize := bs } := by
  have hs := (C18_cmac_new bs E t).mpr ⟨by omega, by omega, by omega⟩
  obtain ⟨d, hd⟩ := Option.isSome_iff_exists.mp hs
  have := C18_cmac_contract bs E hE t d hd
  refine ⟨d, hd, ?_⟩
  rw [Int.toNat_natCast] at this
  rcases hbs with rfl | rfl <;> exact this

/-- `Sum` and `Verify` of verify.go. -/
theorem C18_cmac_verify (bs : Nat) (hbs : bs = 8 ∨ bs = 16) (E : Bytes → Bytes) (hE : ∀ b, b.length = bs → (E b).length = bs)
    (t : Int) (mac msg : Bytes) :
    verify mac msg bs E t = true ↔ (1 ≤ t ∧ t ≤ bs) ∧ mac = Spec.cmac (gfPoly bs) bs E t.toNat msg := by
  unfold verify sum
  cases hd : newWithTagSize bs E t with
  | none =>
    have := C18_cmac_new bs E t
    rw [hd] at this
    simp only [Option.map_none, Bool.false_eq_true, false_iff]
    intro h
    have := this.mpr ⟨by omega, h.1⟩
    cases this
  | some d =>
    have hn := (C18_cmac_new bs E t).mp (by rw [hd]; rfl)
    have hc := C18_cmac_contract bs E hE t d hd
    have h1 := hc [.write msg, .sum []]
    have e1 : impl.run d [.write msg, .sum []] = [.wrote (d.write msg).2, .bytes ([] ++ (d.write msg).1.checkSum)] := rfl
    rw [e1] at h1
    simp only [HashSpec.run, List.nil_append, List.cons.injEq, Out.bytes.injEq] at h1
    simp only [Option.map_some]
    rw [beq_iff_eq, h1.2.1]
    have : gfPoly bs % 256 = gfPoly bs := by rcases hbs with rfl | rfl <;> rfl
    rw [this]
    exact ⟨fun h => ⟨hn.2, h⟩, fun h => h.2⟩

/-- Adding a constant block: a permutation of the blocks. -/
def addConst (c : Bytes) (b : Bytes) : Bytes := bxor b c
theorem addConst_length (c b : Bytes) (h : b.length = c.length) : (addConst c b).length = c.length := by
  unfold addConst; rw [Spec.bxor_length h, h]
theorem addConst_inv (c b : Bytes) (h : b.length = c.length) : addConst c (addConst c b) = b := by
  unfold addConst
  rw [Spec.bxor_assoc]
  have : bxor c c = zeros c.length := by
    refine ext_at8 (by rw [Spec.bxor_length rfl, zeros_length]) fun i hi => ?_
    rw [Spec.bxor_length rfl] at hi
    rw [Spec.at8_bxor i hi hi, at8_zeros]; simp
  rw [this, ← h, Spec.bxor_zeros]

/-- The standard's subkeys need the full constants: for block sizes 256, 512 and 1024 bits there is a permutation of
the blocks for which the object does not compute CMAC over the documented polynomials. -/
theorem C18_cmac_large_violated (bs : Nat) (hbs : bs = 32 ∨ bs = 64 ∨ bs = 128) :
    ∃ E : Bytes → Bytes, (∀ b, b.length = bs → (E b).length = bs) ∧ (∀ b, b.length = bs → E (E b) = b) ∧
      ∀ d, new bs E = some d → ¬ Refines impl d { H := Spec.cmac (gfPoly bs) bs E bs, size := bs, blockSize := bs } := by
  have hc : (0x80#8 :: zeros (bs - 1)).length = bs := by rw [List.length_cons, zeros_length]; omega
  have hE : ∀ b : Bytes, b.length = bs → (addConst (0x80#8 :: zeros (bs - 1)) b).length = bs := fun b hb => by
    rw [addConst_length _ _ (by omega), hc]
  refine ⟨addConst (0x80#8 :: zeros (bs - 1)), hE, fun b hb => addConst_inv _ _ (by omega), ?_⟩
  intro d hd hr
  have h1 := hr [.sum []]
  have h2 := C18_cmac_contract bs _ hE _ d hd [.sum []]
  rw [h1] at h2
  simp only [HashSpec.run, List.nil_append, List.cons.injEq, Out.bytes.injEq, and_true, Int.toNat_natCast] at h2
  rcases hbs with rfl | rfl | rfl
  · exact absurd h2 (by decide +kernel)
  · exact absurd h2 (by decide +kernel)
  · exact absurd h2 (by decide +kernel)

/-! Non-vacuity: the hypotheses are met by a concrete cipher. -/
example : ∃ d, newWithTagSize 16 (addConst (zeros 16)) 12 = some d ∧
    Refines impl d { H := Spec.cmac 0x87 16 (addConst (zeros 16)) 12, size := 12, blockSize := 16 } :=
  C18_cmac_partial 16 (Or.inr rfl) _ (fun b h => by rw [addConst_length _ _ (by rw [zeros_length]; exact h), zeros_length]) 12 (by omega) (by omega)
/-! A test: the doubling of RFC 4493, section 4 (L, K1, K2 of the test key). -/
example : Spec.dbl 0x87 (hex "7df76b0c1ab899b33e42f047b91b546f") = hex "fbeed618357133667c85e08f7236a8de" := by decide +kernel
example : Spec.dbl 0x87 (hex "fbeed618357133667c85e08f7236a8de") = hex "f7ddac306ae266ccf90bc11ee46d513b" := by decide +kernel

end Verif.Props
