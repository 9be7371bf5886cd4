import Verif.Lemmas.LSH
/-
C31: packages lsh256 and lsh512.
-/
namespace Verif.Props
open Verif.LSH

theorem lsh256_fit : Fit pkg256 Spec.LSH.lsh256 where
  ns := rfl
  ev := rfl
  ns2 := by decide
  al i := ⟨by show (if 2 * i % 2 = 0 then 29 else 5) = 29; rw [if_pos (by omega)], by show (if (2 * i + 1) % 2 = 0 then 29 else 5) = 5; rw [if_neg (by omega)]⟩
  be i := ⟨by show (if 2 * i % 2 = 0 then 1 else 17) = 1; rw [if_pos (by omega)], by show (if (2 * i + 1) % 2 = 0 then 1 else 17) = 17; rw [if_neg (by omega)]⟩
  ga := rfl
  sc := by decide +kernel
  get := rfl
  wb := rfl
  wpos := by decide
  putl _ := rfl
  puta t k hk := by
    have : k = 0 ∨ k = 1 ∨ k = 2 ∨ k = 3 := by omega
    rcases this with rfl | rfl | rfl | rfl <;> (apply BitVec.eq_of_getLsbD_eq; intro i hi; simp [at8, le32, Spec.LSH.lsh256, hi])
  sh i := by show i >>> 2 = _; rw [Nat.shiftRight_eq_div_pow]
  msk i := by
    show (i <<< 3) &&& 0x1f = 8 * (i % 4)
    rw [show (0x1f : Nat) = 2 ^ 5 - 1 from rfl, Nat.and_two_pow_sub_one_eq_mod, Nat.shiftLeft_eq]; omega

theorem lsh512_fit : Fit pkg512 Spec.LSH.lsh512 where
  ns := rfl
  ev := rfl
  ns2 := by decide
  al i := ⟨by show (if 2 * i % 2 = 0 then 23 else 7) = 23; rw [if_pos (by omega)], by show (if (2 * i + 1) % 2 = 0 then 23 else 7) = 7; rw [if_neg (by omega)]⟩
  be i := ⟨by show (if 2 * i % 2 = 0 then 59 else 3) = 59; rw [if_pos (by omega)], by show (if (2 * i + 1) % 2 = 0 then 59 else 3) = 3; rw [if_neg (by omega)]⟩
  ga := rfl
  sc := by decide +kernel
  get := rfl
  wb := rfl
  wpos := by decide
  putl _ := rfl
  puta t k hk := by
    have : k = 0 ∨ k = 1 ∨ k = 2 ∨ k = 3 ∨ k = 4 ∨ k = 5 ∨ k = 6 ∨ k = 7 := by omega
    rcases this with rfl | rfl | rfl | rfl | rfl | rfl | rfl | rfl <;> (apply BitVec.eq_of_getLsbD_eq; intro i hi; simp [at8, le64, Spec.LSH.lsh512, hi])
  sh i := by show i >>> 3 = _; rw [Nat.shiftRight_eq_div_pow]
  msk i := by
    show (i <<< 3) &&& 0x3f = 8 * (i % 8)
    rw [show (0x3f : Nat) = 2 ^ 6 - 1 from rfl, Nat.and_two_pow_sub_one_eq_mod, Nat.shiftLeft_eq]; omega

theorem iv_length {w : Nat} (Q : Spec.LSH.Params w) (h : 2 ≤ Q.Ns) (n : Nat) : (Spec.LSH.iv Q n).length = 16 := by
  unfold Spec.LSH.iv
  obtain ⟨k, hk⟩ : ∃ n, Q.Ns = n + 1 := ⟨Q.Ns - 1, by omega⟩
  rw [hk, List.range_succ, List.foldl_append, List.foldl_cons, List.foldl_nil]; exact wordPerm_length _

theorem lsh_contract {w : Nat} {P : Pkg w} {Q : Spec.LSH.Params w} (hf : Fit P Q) (hs : Nat) (hle : hs ≤ 8 * (w / 8)) (hiv : P.iv hs = Spec.LSH.iv Q (8 * hs)) :
    Refines (impl P) (reset P hs) { H := Spec.LSH.hash Q (8 * hs), size := hs, blockSize := Spec.LSH.B w } :=
  refines_of_sim _ _ _ (Rep P Q hs) (reset_rep P Q hs)
    (fun d m p h => ⟨_, rfl, write_rep hf hs (by rw [hiv]; exact iv_length Q hf.ns2 _) d m p h⟩)
    (fun d m b h => ⟨d, by show some (d, b ++ d.checkSum P) = _; rw [checkSum_eq hf hs hle hiv d m h], h⟩)
    (fun d m h => by show Rep P Q hs (reset P d.hs) []; rw [h.size]; exact reset_rep P Q hs)
    (fun d m h => h.size)
    (fun _ _ _ => by show P.blockSize = _; unfold Pkg.blockSize Spec.LSH.B; rw [hf.wb])

/-- lsh256.New: LSH-256-256, for every history of calls. -/
theorem C31_lsh256_contract : Refines (impl pkg256) (reset pkg256 32) { H := Spec.LSH.hash Spec.LSH.lsh256 256, size := 32, blockSize := 128 } :=
  lsh_contract lsh256_fit 32 (by decide) (by decide +kernel)
/-- lsh256.New224: LSH-256-224. -/
theorem C31_lsh256_224_contract : Refines (impl pkg256) (reset pkg256 28) { H := Spec.LSH.hash Spec.LSH.lsh256 224, size := 28, blockSize := 128 } :=
  lsh_contract lsh256_fit 28 (by decide) (by decide +kernel)
/-- lsh512.New: LSH-512-512. -/
theorem C31_lsh512_contract : Refines (impl pkg512) (reset pkg512 64) { H := Spec.LSH.hash Spec.LSH.lsh512 512, size := 64, blockSize := 256 } :=
  lsh_contract lsh512_fit 64 (by decide) (by decide +kernel)
/-- lsh512.New384: LSH-512-384. -/
theorem C31_lsh512_384_contract : Refines (impl pkg512) (reset pkg512 48) { H := Spec.LSH.hash Spec.LSH.lsh512 384, size := 48, blockSize := 256 } :=
  lsh_contract lsh512_fit 48 (by decide) (by decide +kernel)
/-- lsh512.New256: LSH-512-256. -/
theorem C31_lsh512_256_contract : Refines (impl pkg512) (reset pkg512 32) { H := Spec.LSH.hash Spec.LSH.lsh512 256, size := 32, blockSize := 256 } :=
  lsh_contract lsh512_fit 32 (by decide) (by decide +kernel)
/-- lsh512.New224: LSH-512-224. -/
theorem C31_lsh512_224_contract : Refines (impl pkg512) (reset pkg512 28) { H := Spec.LSH.hash Spec.LSH.lsh512 224, size := 28, blockSize := 256 } :=
  lsh_contract lsh512_fit 28 (by decide) (by decide +kernel)

end Verif.Props
