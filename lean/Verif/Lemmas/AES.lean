import Verif.Model.Shavite
import Verif.Spec.AES
import Verif.FnList
/-
The AES round by the four tables.
-/
namespace Verif.Shavite
open Spec.Groestl (sbox mul)
open Spec.AES (Col4 coef)

def w4 (a b c d : Byte) : U32 := (d ++ c ++ b ++ a : BitVec 32)

theorem w4_xor (a b c d a' b' c' d' : Byte) : w4 a b c d ^^^ w4 a' b' c' d' = w4 (a ^^^ a') (b ^^^ b') (c ^^^ c') (d ^^^ d') := by
  unfold w4
  apply BitVec.eq_of_getLsbD_eq
  intro i hi
  simp only [BitVec.getLsbD_xor, BitVec.getLsbD_append]
  by_cases h1 : i < 8
  · simp only [h1, if_true]
  · by_cases h2 : i - 8 < 8
    · simp only [h1, h2, if_true, if_false]
    · by_cases h3 : i - 8 - 8 < 8
      · simp only [h1, h2, h3, if_true, if_false]
      · simp only [h1, h2, h3, if_false]

theorem getLE32_w4 (b : Bytes) (i : Nat) : getLE32 b i = w4 (at8 b i) (at8 b (i + 1)) (at8 b (i + 2)) (at8 b (i + 3)) := rfl

def T (k n : Nat) : U32 :=
  w4 (mul (coef 0 k) (at8 sbox n)) (mul (coef 1 k) (at8 sbox n)) (mul (coef 2 k) (at8 sbox n)) (mul (coef 3 k) (at8 sbox n))

set_option maxRecDepth 10000 in
theorem tab0 : ∀ n, n < 256 → AES0.getD n 0 = T 0 n := by decide +kernel
set_option maxRecDepth 10000 in
theorem tab1 : ∀ n, n < 256 → AES1.getD n 0 = T 1 n := by decide +kernel
set_option maxRecDepth 10000 in
theorem tab2 : ∀ n, n < 256 → AES2.getD n 0 = T 2 n := by decide +kernel
set_option maxRecDepth 10000 in
theorem tab3 : ∀ n, n < 256 → AES3.getD n 0 = T 3 n := by decide +kernel

theorem idx0 (x : U32) : (x &&& 0xFF).toNat = (x.extractLsb' 0 8).toNat := by
  rw [BitVec.toNat_and, BitVec.extractLsb'_toNat, show (0xFF : U32).toNat = 2 ^ 8 - 1 from rfl, Nat.and_two_pow_sub_one_eq_mod]; simp
theorem idx1 (x : U32) : ((x >>> 8) &&& 0xFF).toNat = (x.extractLsb' 8 8).toNat := by
  rw [BitVec.toNat_and, BitVec.extractLsb'_toNat, show (0xFF : U32).toNat = 2 ^ 8 - 1 from rfl, Nat.and_two_pow_sub_one_eq_mod, BitVec.toNat_ushiftRight]
theorem idx2 (x : U32) : ((x >>> 16) &&& 0xFF).toNat = (x.extractLsb' 16 8).toNat := by
  rw [BitVec.toNat_and, BitVec.extractLsb'_toNat, show (0xFF : U32).toNat = 2 ^ 8 - 1 from rfl, Nat.and_two_pow_sub_one_eq_mod, BitVec.toNat_ushiftRight]
theorem idx3 (x : U32) : (x >>> 24).toNat = (x.extractLsb' 24 8).toNat := by
  rw [BitVec.extractLsb'_toNat, BitVec.toNat_ushiftRight, Nat.mod_eq_of_lt]
  have := x.isLt
  rw [Nat.shiftRight_eq_div_pow]; omega

/-- One table line. -/
theorem line_eq (a b c d : U32) :
    AES0.getD (a &&& 0xFF).toNat 0 ^^^ AES1.getD ((b >>> 8) &&& 0xFF).toNat 0 ^^^ AES2.getD ((c >>> 16) &&& 0xFF).toNat 0 ^^^ AES3.getD (d >>> 24).toNat 0 =
      T 0 (a.extractLsb' 0 8).toNat ^^^ T 1 (b.extractLsb' 8 8).toNat ^^^ T 2 (c.extractLsb' 16 8).toNat ^^^ T 3 (d.extractLsb' 24 8).toNat := by
  rw [idx0, idx1, idx2, idx3, tab0 _ (BitVec.isLt _), tab1 _ (BitVec.isLt _), tab2 _ (BitVec.isLt _), tab3 _ (BitVec.isLt _)]

theorem at8_map (f : Byte → Byte) (b : Bytes) (i : Nat) (h : i < b.length) : at8 (b.map f) i = f (at8 b i) := by
  simp [at8, List.getD_eq_getElem?_getD, h]

theorem at8_FL (n : Nat) (f : Nat → Byte) (i : Nat) (h : i < n) : at8 ((List.range n).map f) i = f i := by
  simp [at8, List.getD_eq_getElem?_getD, h]

theorem bytes_length (q : Col4) : (Spec.AES.bytes q).length = 16 := by simp [Spec.AES.bytes, le32_length]

theorem bytes_at (q : Col4) (r : Nat) (hr : r < 4) : at8 (Spec.AES.bytes q) r = q.1.extractLsb' (8 * r) 8 ∧ at8 (Spec.AES.bytes q) (4 + r) = q.2.1.extractLsb' (8 * r) 8 ∧
    at8 (Spec.AES.bytes q) (8 + r) = q.2.2.1.extractLsb' (8 * r) 8 ∧ at8 (Spec.AES.bytes q) (12 + r) = q.2.2.2.extractLsb' (8 * r) 8 := by
  match r, hr with
  | 0, _ => exact ⟨rfl, rfl, rfl, rfl⟩
  | 1, _ => exact ⟨rfl, rfl, rfl, rfl⟩
  | 2, _ => exact ⟨rfl, rfl, rfl, rfl⟩
  | 3, _ => exact ⟨rfl, rfl, rfl, rfl⟩

/-- What ShiftRows ∘ SubBytes has at position i. -/
theorem sr_at (q : Col4) (i : Nat) (hi : i < 16) :
    at8 (Spec.AES.shiftRows (Spec.AES.subBytes (Spec.AES.bytes q))) i = at8 sbox (at8 (Spec.AES.bytes q) (4 * ((i / 4 + i % 4) % 4) + i % 4)).toNat := by
  unfold Spec.AES.shiftRows Spec.AES.subBytes
  rw [at8_FL _ _ _ hi, at8_map _ _ _ (by rw [bytes_length]; omega)]

theorem mix_at (b : Bytes) (i : Nat) (hi : i < 16) : at8 (Spec.AES.mixColumns b) i =
    mul (coef (i % 4) 0) (at8 b (4 * (i / 4))) ^^^ mul (coef (i % 4) 1) (at8 b (4 * (i / 4) + 1)) ^^^ mul (coef (i % 4) 2) (at8 b (4 * (i / 4) + 2)) ^^^
      mul (coef (i % 4) 3) (at8 b (4 * (i / 4) + 3)) := by
  unfold Spec.AES.mixColumns
  rw [at8_FL _ _ _ hi]
  show (((0 ^^^ _) ^^^ _) ^^^ _) ^^^ _ = _
  rw [show ∀ x : Byte, (0 : Byte) ^^^ x = x from fun x => BitVec.zero_xor, Nat.add_zero]

theorem col_eq (b : Bytes) (c : Nat) (hc : c < 4) : getLE32 (Spec.AES.mixColumns b) (4 * c) =
    w4 (mul (coef 0 0) (at8 b (4 * c))) (mul (coef 1 0) (at8 b (4 * c))) (mul (coef 2 0) (at8 b (4 * c))) (mul (coef 3 0) (at8 b (4 * c))) ^^^
    w4 (mul (coef 0 1) (at8 b (4 * c + 1))) (mul (coef 1 1) (at8 b (4 * c + 1))) (mul (coef 2 1) (at8 b (4 * c + 1))) (mul (coef 3 1) (at8 b (4 * c + 1))) ^^^
    w4 (mul (coef 0 2) (at8 b (4 * c + 2))) (mul (coef 1 2) (at8 b (4 * c + 2))) (mul (coef 2 2) (at8 b (4 * c + 2))) (mul (coef 3 2) (at8 b (4 * c + 2))) ^^^
    w4 (mul (coef 0 3) (at8 b (4 * c + 3))) (mul (coef 1 3) (at8 b (4 * c + 3))) (mul (coef 2 3) (at8 b (4 * c + 3))) (mul (coef 3 3) (at8 b (4 * c + 3))) := by
  rw [w4_xor, w4_xor, w4_xor, getLE32_w4, mix_at _ _ (by omega), mix_at _ _ (by omega), mix_at _ _ (by omega), mix_at _ _ (by omega)]
  rw [show (4 * c) % 4 = 0 by omega, show (4 * c + 1) % 4 = 1 by omega, show (4 * c + 2) % 4 = 2 by omega, show (4 * c + 3) % 4 = 3 by omega,
    show (4 * c) / 4 = c by omega, show (4 * c + 1) / 4 = c by omega, show (4 * c + 2) / 4 = c by omega, show (4 * c + 3) / 4 = c by omega]

/-- The table lines are the AES round. -/
theorem aes_eq (q : Q) : aes q = Spec.AES.round q := by
  obtain ⟨x0, x1, x2, x3⟩ := q
  unfold aes Spec.AES.round Spec.AES.cols
  dsimp only
  rw [line_eq, line_eq, line_eq, line_eq]
  rw [show (0 : Nat) = 4 * 0 from rfl, show (4 : Nat) = 4 * 1 from rfl, show (8 : Nat) = 4 * 2 from rfl, show (12 : Nat) = 4 * 3 from rfl]
  rw [col_eq _ 0 (by omega), col_eq _ 1 (by omega), col_eq _ 2 (by omega), col_eq _ 3 (by omega)]
  simp only [sr_at, Nat.reduceMul, Nat.reduceAdd, Nat.reduceDiv, Nat.reduceMod, Nat.reduceLT]
  rfl

end Verif.Shavite
