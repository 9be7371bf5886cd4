import Verif.Model.Fugue
import Verif.Spec.Fugue
import Mathlib.Tactic.IntervalCases
/-
Package fugue: the tables, SMIX, and the unrolled rounds.
-/
namespace Verif.Fugue
open Spec.Groestl (sbox mul)
open Spec.Fugue (M V superMix smix4 row col)

/-- What entry n of table i should be. -/
def T (i : Nat) (u : Byte) : U32 := mul (M 0 i) u ++ mul (M 1 i) u ++ mul (M 2 i) u ++ mul (M 3 i) u
theorem tab0 : ∀ n, n < 256 → mixtab0.getD n 0 = T 0 (at8 sbox n) := by decide +kernel
theorem tab1 : ∀ n, n < 256 → mixtab1.getD n 0 = T 1 (at8 sbox n) := by decide +kernel
theorem tab2 : ∀ n, n < 256 → mixtab2.getD n 0 = T 2 (at8 sbox n) := by decide +kernel
theorem tab3 : ∀ n, n < 256 → mixtab3.getD n 0 = T 3 (at8 sbox n) := by decide +kernel

theorem pack (a b c d : U32) : (a &&& 0xFF000000#32) ||| (b &&& 0x00FF0000#32) ||| (c &&& 0x0000FF00#32) ||| (d &&& 0x000000FF#32) =
    a.extractLsb' 24 8 ++ b.extractLsb' 16 8 ++ c.extractLsb' 8 8 ++ d.extractLsb' 0 8 := by
  apply BitVec.eq_of_getLsbD_eq
  intro i hi
  rw [BitVec.getLsbD_append, BitVec.getLsbD_append, BitVec.getLsbD_append]
  simp only [BitVec.getLsbD_or, BitVec.getLsbD_and, BitVec.getLsbD_extractLsb']
  interval_cases i <;> simp

theorem bx (a b : U32) (k : Nat) : (a ^^^ b).extractLsb' k 8 = a.extractLsb' k 8 ^^^ b.extractLsb' k 8 := by ext i hi; simp
theorem sl (a : U32) (n k : Nat) (h : n ≤ k) (hk : k ≤ 24) : (a <<< n).extractLsb' k 8 = a.extractLsb' (k - n) 8 := by
  ext i hi
  simp only [BitVec.getElem_extractLsb', BitVec.getLsbD_shiftLeft]
  have : k + i - n = k - n + i := by omega
  simp [this]; omega
theorem sr (a : U32) (n k : Nat) : (a >>> n).extractLsb' k 8 = a.extractLsb' (k + n) 8 := by
  ext i hi
  simp only [BitVec.getElem_extractLsb', BitVec.getLsbD_ushiftRight]
  congr 1; omega
theorem q0 (a b c d : Byte) : (a ++ b ++ c ++ d : U32).extractLsb' 24 8 = a := by
  apply BitVec.eq_of_getLsbD_eq
  intro i hi
  rw [BitVec.getLsbD_extractLsb', BitVec.getLsbD_append, BitVec.getLsbD_append, BitVec.getLsbD_append]
  interval_cases i <;> simp
theorem q1 (a b c d : Byte) : (a ++ b ++ c ++ d : U32).extractLsb' 16 8 = b := by
  apply BitVec.eq_of_getLsbD_eq
  intro i hi
  rw [BitVec.getLsbD_extractLsb', BitVec.getLsbD_append, BitVec.getLsbD_append, BitVec.getLsbD_append]
  interval_cases i <;> simp
theorem q2 (a b c d : Byte) : (a ++ b ++ c ++ d : U32).extractLsb' 8 8 = c := by
  apply BitVec.eq_of_getLsbD_eq
  intro i hi
  rw [BitVec.getLsbD_extractLsb', BitVec.getLsbD_append, BitVec.getLsbD_append, BitVec.getLsbD_append]
  interval_cases i <;> simp
theorem q3 (a b c d : Byte) : (a ++ b ++ c ++ d : U32).extractLsb' 0 8 = d := by
  apply BitVec.eq_of_getLsbD_eq
  intro i hi
  rw [BitVec.getLsbD_extractLsb', BitVec.getLsbD_append, BitVec.getLsbD_append, BitVec.getLsbD_append]
  interval_cases i <;> simp

theorem row0 (x : U32) : (x >>> 24).setWidth 8 = row x 0 := by
  show _ = x.extractLsb' 24 8
  ext i hi; simp
theorem row1 (x : U32) : (x >>> 16).setWidth 8 = row x 1 := by
  show _ = x.extractLsb' 16 8
  ext i hi; simp
theorem row2 (x : U32) : (x >>> 8).setWidth 8 = row x 2 := by
  show _ = x.extractLsb' 8 8
  ext i hi; simp
theorem row3 (x : U32) : x.setWidth 8 = row x 3 := by
  show _ = x.extractLsb' 0 8
  ext i hi; simp

theorem t0 (x : U32) : mixtab0.getD ((x >>> 24).setWidth 8).toNat 0 = T 0 (at8 sbox (row x 0).toNat) := by rw [row0]; exact tab0 _ (BitVec.isLt _)
theorem t1 (x : U32) : mixtab1.getD ((x >>> 16).setWidth 8).toNat 0 = T 1 (at8 sbox (row x 1).toNat) := by rw [row1]; exact tab1 _ (BitVec.isLt _)
theorem t2 (x : U32) : mixtab2.getD ((x >>> 8).setWidth 8).toNat 0 = T 2 (at8 sbox (row x 2).toNat) := by rw [row2]; exact tab2 _ (BitVec.isLt _)
theorem t3 (x : U32) : mixtab3.getD (x.setWidth 8).toNat 0 = T 3 (at8 sbox (row x 3).toNat) := by rw [row3]; exact tab3 _ (BitVec.isLt _)

theorem z8 (x : Byte) : (0 : Byte) ^^^ x = x := by simp

theorem V0 (U : Nat → Nat → Byte) (k : Nat) : V U 0 k = mul (M 0 0) (U 0 k) ^^^ mul (M 0 1) (U 1 k) ^^^ mul (M 0 2) (U 2 k) ^^^ mul (M 0 3) (U 3 k) ^^^
    (mul (M k 0) (U 0 1) ^^^ mul (M k 0) (U 0 2) ^^^ mul (M k 0) (U 0 3)) := by
  show (0 ^^^ _ ^^^ _ ^^^ _ ^^^ _) ^^^ (0 ^^^ _ ^^^ _ ^^^ _) = _
  rw [z8, z8]
theorem V1 (U : Nat → Nat → Byte) (k : Nat) : V U 1 k = mul (M 1 0) (U 0 k) ^^^ mul (M 1 1) (U 1 k) ^^^ mul (M 1 2) (U 2 k) ^^^ mul (M 1 3) (U 3 k) ^^^
    (mul (M k 1) (U 1 0) ^^^ mul (M k 1) (U 1 2) ^^^ mul (M k 1) (U 1 3)) := by
  show (0 ^^^ _ ^^^ _ ^^^ _ ^^^ _) ^^^ (0 ^^^ _ ^^^ _ ^^^ _) = _
  rw [z8, z8]
theorem V2 (U : Nat → Nat → Byte) (k : Nat) : V U 2 k = mul (M 2 0) (U 0 k) ^^^ mul (M 2 1) (U 1 k) ^^^ mul (M 2 2) (U 2 k) ^^^ mul (M 2 3) (U 3 k) ^^^
    (mul (M k 2) (U 2 0) ^^^ mul (M k 2) (U 2 1) ^^^ mul (M k 2) (U 2 3)) := by
  show (0 ^^^ _ ^^^ _ ^^^ _ ^^^ _) ^^^ (0 ^^^ _ ^^^ _ ^^^ _) = _
  rw [z8, z8]
theorem V3 (U : Nat → Nat → Byte) (k : Nat) : V U 3 k = mul (M 3 0) (U 0 k) ^^^ mul (M 3 1) (U 1 k) ^^^ mul (M 3 2) (U 2 k) ^^^ mul (M 3 3) (U 3 k) ^^^
    (mul (M k 3) (U 3 0) ^^^ mul (M k 3) (U 3 1) ^^^ mul (M k 3) (U 3 2)) := by
  show (0 ^^^ _ ^^^ _ ^^^ _ ^^^ _) ^^^ (0 ^^^ _ ^^^ _ ^^^ _) = _
  rw [z8, z8]

theorem sm0 (U : Nat → Nat → Byte) : superMix U 0 = V U 0 0 ++ V U 1 1 ++ V U 2 2 ++ V U 3 3 := rfl
theorem sm1 (U : Nat → Nat → Byte) : superMix U 1 = V U 0 1 ++ V U 1 2 ++ V U 2 3 ++ V U 3 0 := rfl
theorem sm2 (U : Nat → Nat → Byte) : superMix U 2 = V U 0 2 ++ V U 1 3 ++ V U 2 0 ++ V U 3 1 := rfl
theorem sm3 (U : Nat → Nat → Byte) : superMix U 3 = V U 0 3 ++ V U 1 0 ++ V U 2 1 ++ V U 3 2 := rfl

theorem e0 (i u) : (T i u).extractLsb' 24 8 = mul (M 0 i) u := q0 _ _ _ _
theorem e1 (i u) : (T i u).extractLsb' 16 8 = mul (M 1 i) u := q1 _ _ _ _
theorem e2 (i u) : (T i u).extractLsb' 8 8 = mul (M 2 i) u := q2 _ _ _ _
theorem e3 (i u) : (T i u).extractLsb' 0 8 = mul (M 3 i) u := q3 _ _ _ _

theorem smixv_eq (x0 x1 x2 x3 : U32) :
    smix4 [x0, x1, x2, x3] = [(smixv x0 x1 x2 x3).1, (smixv x0 x1 x2 x3).2.1, (smixv x0 x1 x2 x3).2.2.1, (smixv x0 x1 x2 x3).2.2.2] := by
  unfold smixv
  dsimp only
  simp only [t0, t1, t2, t3, pack, bx, sl _ 0 24 (by omega) (by omega), sl _ 8 24 (by omega) (by omega), sl _ 16 24 (by omega) (by omega), sl _ 24 24 (by omega) (by omega),
    sl _ 0 16 (by omega) (by omega), sl _ 8 16 (by omega) (by omega), sl _ 16 16 (by omega) (by omega),
    sl _ 0 8 (by omega) (by omega), sl _ 8 8 (by omega) (by omega), sl _ 0 0 (by omega) (by omega), sr, Nat.reduceSub, Nat.reduceAdd, e0, e1, e2, e3]
  show [superMix _ 0, superMix _ 1, superMix _ 2, superMix _ 3] = _
  rw [sm0, sm1, sm2, sm3]
  simp only [V0, V1, V2, V3]
  rfl
end Verif.Fugue
