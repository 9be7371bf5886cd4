import Verif.Lemmas.JHBits
import Verif.Lemmas.JHConsts
import Verif.Model.JH2
namespace Verif.JH2
open Verif.JH
open Spec.JH (bit)

/-- The bytes of the words. -/
def tb (w : List U64) : Bytes := (w.map be64).flatten

theorem tb_length (w : List U64) : (tb w).length = 8 * w.length := by
  unfold tb
  induction w with
  | nil => rfl
  | cons a w ih => rw [List.map_cons, List.flatten_cons, List.length_append, ih, be64_length, List.length_cons]; omega

theorem tb_at : ∀ (w : List U64) (j i : Nat), j < w.length → i < 8 → at8 (tb w) (8 * j + i) = at8 (be64 (w.getD j 0)) i
  | [], _, _, h, _ => by simp at h
  | a :: w, 0, i, _, hi => by
    unfold tb at8
    rw [List.map_cons, List.flatten_cons, List.getD_eq_getElem?_getD, List.getElem?_append_left (by rw [be64_length]; omega)]; simp
  | a :: w, j + 1, i, h, hi => by
    have := tb_at w j i (by simpa using h) hi
    unfold tb at8 at *
    rw [List.map_cons, List.flatten_cons, List.getD_eq_getElem?_getD, List.getElem?_append_right (by rw [be64_length]; omega), ← List.getD_eq_getElem?_getD,
      be64_length, show 8 * (j + 1) + i - 8 = 8 * j + i by omega, this]
    rfl

/-- Bit p of the 128-bit word k. -/
def acc (h : List U64) (k p : Nat) : Bool := (h.getD (2 * k + p / 64) 0).getLsbD (63 - p % 64)

theorem bit_tb (h : List U64) (hl : h.length = 16) (k p : Nat) (hk : k < 8) (hp : p < 128) : bit (tb h) (128 * k + p) = acc h k p := by
  unfold bit acc
  have e : (128 * k + p) / 8 = 8 * (2 * k + p / 64) + p % 64 / 8 := by omega
  rw [e, tb_at _ _ _ (by omega) (by omega), be64_get (by omega), BitVec.getLsbD_extractLsb']
  rw [show (128 * k + p) % 8 = p % 8 by omega, decide_eq_true (by omega), Bool.true_and]
  congr 1; omega

/-- The constants as bits. -/
def cb (r b p : Nat) : Bool := (C.getD (4 * r + (2 * b + p / 64)) 0).getLsbD (63 - p % 64)

/-- The constants used in round r. -/
def roundC (r : Nat) : List Bool := (List.range 256).map fun j => cb r (lay r j % 2) (lay r j / 2)

set_option maxRecDepth 100000
theorem const0 : Spec.JH.constsFrom 11 Spec.JH.C0 = (List.range 11).map fun r => roundC (0 + r) := by decide +kernel
theorem const11 : Spec.JH.constsFrom 11 JH.st11 = (List.range 11).map fun r => roundC (11 + r) := by decide +kernel
theorem const22 : Spec.JH.constsFrom 11 JH.st22 = (List.range 11).map fun r => roundC (22 + r) := by decide +kernel
theorem const33 : Spec.JH.constsFrom 9 JH.st33 = (List.range 9).map fun r => roundC (33 + r) := by decide +kernel
theorem const_ok : ConstOk cb := by
  unfold ConstOk
  show _ = (List.range 42).map roundC
  rw [JH.consts_parts, const0, const11, const22, const33]
  rfl
set_option maxRecDepth 512

theorem sb_bits (cc x0 x1 x2 x3 : U64) (i : Nat) (hi : i < 64) :
    ((sb cc x0 x1 x2 x3).1.getLsbD i, (sb cc x0 x1 x2 x3).2.1.getLsbD i, (sb cc x0 x1 x2 x3).2.2.1.getLsbD i, (sb cc x0 x1 x2 x3).2.2.2.getLsbD i) =
      sl (cc.getLsbD i) (x0.getLsbD i) (x1.getLsbD i) (x2.getLsbD i) (x3.getLsbD i) := by
  unfold sb sl
  simp only [BitVec.getLsbD_xor, BitVec.getLsbD_and, BitVec.getLsbD_or, BitVec.getLsbD_not, hi, decide_true, Bool.true_and]

/-- Rounds without the swap, on the bits. -/
theorem doS_acc (h : List U64) (r q i k : Nat) (hq : q < 2) (hi : i < 64) (hk : k < 4) (b : Nat) (hb : b < 2) :
    ((doS h r).getD (4 * k + 2 * b + q) 0).getLsbD i = comp (sl ((C.getD (4 * r + (2 * b + q)) 0).getLsbD i) ((h.getD (2 * b + q) 0).getLsbD i)
      ((h.getD (4 + (2 * b + q)) 0).getLsbD i) ((h.getD (8 + (2 * b + q)) 0).getLsbD i) ((h.getD (12 + (2 * b + q)) 0).getLsbD i)) k := by
  rw [← sb_bits _ _ _ _ _ i hi]
  interval_cases k <;> interval_cases b <;> interval_cases q <;> rfl

theorem doL_acc (h : List U64) (q i k : Nat) (hq : q < 2) (hk : k < 4) :
    ((doL h).getD (4 * k + q) 0).getLsbD i = evenL (fun k => (h.getD (4 * k + q) 0).getLsbD i) (fun k => (h.getD (4 * k + 2 + q) 0).getLsbD i) k ∧
    ((doL h).getD (4 * k + 2 + q) 0).getLsbD i = oddL (fun k => (h.getD (4 * k + q) 0).getLsbD i) (fun k => (h.getD (4 * k + 2 + q) 0).getLsbD i) k := by
  interval_cases k <;> interval_cases q <;>
    simp only [doL, lb, evenL, oddL, List.getD_cons_zero, List.getD_cons_succ, BitVec.getLsbD_xor, Nat.reduceMul, Nat.reduceAdd, Nat.mul_zero, Nat.zero_add, Nat.mul_one, and_self, Nat.add_zero]

end Verif.JH2
