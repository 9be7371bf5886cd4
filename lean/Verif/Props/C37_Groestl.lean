import Verif.Lemmas.GroestlObj
/-
C37: package groestl.
-/
namespace Verif.Props
open Verif.Groestl

/-- The contract of C37 for every digest size from 8 to 512 bits in whole bytes, for messages below 2^60 bytes (the code counts bits in 64 bits). -/
theorem C37_groestl_contract_partial (hs : Nat) (h1 : 8 ≤ hs) (h2 : hs ≤ 512) (h8 : hs % 8 = 0) :
    ∃ d, new hs = some d ∧
      RefinesOn (Fits (2 ^ 60)) impl d { H := Spec.Groestl.hash hs, size := hs / 8, blockSize := if hs ≤ 256 then 64 else 128 } := by
  refine ⟨Digest.reset { s := [], x := [], nx := 0, len := 0, hs := hs, bs := 0 }, ?_, ?_⟩
  · unfold new
    rw [if_neg (by omega), if_neg (by rw [Int.tmod_eq_emod_of_nonneg (by omega)]; omega), if_neg (by omega)]
  have hz : ∀ d m, Rep hs d m → (d.hs.tdiv 8).toNat = hs / 8 := by
    intro d m h
    rw [h.hhs, Int.tdiv_eq_ediv_of_nonneg (by omega)]; omega
  refine refinesOn_fits_of_sim _ impl _ _ (Rep hs) (reset_rep hs h2 _ rfl) ?_ ?_ ?_ ?_ ?_
  · intro d m p hr _
    exact ⟨(d.write p).1, rfl, write_rep hs d m p hr⟩
  · intro d m b hr hm
    refine ⟨d, ?_, hr⟩
    show d.checkSum.map _ = _
    rw [checkSum_eq hs h1 h2 d m hr (by omega)]; rfl
  · intro d m hr; exact reset_rep hs h2 d hr.hhs
  · intro d m hr; exact hz d m hr
  · intro d m hr
    show d.bs / 8 = _
    rw [hr.hbs]; unfold BL Spec.Groestl.cols
    dsimp only
    split <;> omega

/-- New accepts sizes that Sum cannot produce: a negative number of bits passes all checks, and then Sum panics. -/
theorem C37_groestl_new_violated (n : Nat) (hn : 0 < n) (b : Bytes) :
    ∃ d, new (-(8 * n : Int)) = some d ∧ impl.run d [.sum b] = [.panicked] := by
  have hk : (-(8 * (n : Int))).tdiv 8 = -(n : Int) := by rw [Int.neg_tdiv, Int.mul_tdiv_cancel_left _ (by decide)]
  refine ⟨Digest.reset { s := [], x := [], nx := 0, len := 0, hs := -(8 * n : Int), bs := 0 }, ?_, ?_⟩
  · unfold new
    rw [if_neg (by omega), if_neg (by rw [Int.neg_tmod, Int.mul_tmod_right]; decide), if_neg (by omega)]
  · have : ∀ d : Digest, d.hs = -(8 * (n : Int)) → d.checkSum = none := by
      intro d hd
      unfold Digest.checkSum
      dsimp only
      rw [hd, hk]
      exact if_pos (Or.inr (by omega))
    simp only [HashImpl.run, impl]
    rw [this _ rfl]
    rfl

/-! Known answer tests (tests, not proofs). -/
set_option maxRecDepth 100000 in
example : Spec.Groestl.hash 256 [] = hex "1a52d11d550039be16107f9c58db9ebcc417f16f736adb2502567119f0083467" := by decide +kernel

end Verif.Props
