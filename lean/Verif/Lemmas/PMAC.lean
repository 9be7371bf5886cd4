import Verif.Lemmas.CMAC
import Verif.Spec.PMAC
import Verif.Model.PMAC
/-
pmac: the table, the inverse, the counter, and the invariant of Write.
-/
namespace Verif.PMAC
open Verif.CMAC (xorAt shift shift_length shift_nat shift_bit initBlocks_mem)
open Verif.Spec (bxor beNat bxor_length at8_bxor padBlock ntz pmacL pmacSum)

/-! ### Doubling and halving -/

theorem dbl_eq (l : Bytes) (hl : 0 < l.length) : dbl l = Spec.dbl 0x87 l := by
  have := CMAC.double_eq 0x87 l hl
  rw [show Spec.dbl (0x87 % 256) l = Spec.dbl 0x87 l from rfl] at this
  rw [← this]
  unfold dbl CMAC.double
  dsimp only
  refine congrArg (fun z => (shift l).1.set (l.length - 1) (at8 (shift l).1 (l.length - 1) ^^^ z)) ?_
  rcases shift_bit l with h | h <;> rw [h] <;> rfl
theorem dbl_length (l : Bytes) : (dbl l).length = l.length := by
  unfold dbl; rw [List.length_set, shift_length]

theorem table_get (n : Nat) : ∀ (L : Bytes), 0 < L.length → ∀ i, (table n L)[i]? = if i < n then some (pmacL 0x87 L i) else none := by
  induction n with
  | zero => intro L _ i; simp [table]
  | succ n ih =>
    intro L hL i
    have hsucc : ∀ j, pmacL 0x87 (dbl L) j = pmacL 0x87 L (j + 1) := by
      intro j
      induction j with
      | zero => show dbl L = Spec.dbl 0x87 L; exact dbl_eq L hL
      | succ j ihj => show Spec.dbl 0x87 (pmacL 0x87 (dbl L) j) = Spec.dbl 0x87 (pmacL 0x87 L (j + 1)); rw [ihj]
    cases i with
    | zero => show some L = _; rw [if_pos (by omega)]; rfl
    | succ i =>
      show (table n (dbl L))[i]? = _
      rw [ih (dbl L) (by rw [dbl_length]; exact hL) i, hsucc]
      by_cases h : i < n
      · rw [if_pos h, if_pos (by omega)]
      · rw [if_neg h, if_neg (by omega)]

theorem spec_dbl_length (R : Nat) (l : Bytes) : (Spec.dbl R l).length = l.length := by unfold Spec.dbl; rw [Spec.beBytes_length]
theorem pmacL_length (R : Nat) (L : Bytes) : ∀ i, (pmacL R L i).length = L.length
  | 0 => rfl
  | i + 1 => by show (Spec.dbl R _).length = _; rw [spec_dbl_length, pmacL_length R L i]

theorem shr_length : ∀ (l : Bytes) (p : Byte), (shr p l).length = l.length
  | [], _ => rfl
  | x :: xs, _ => congrArg (· + 1) (shr_length xs x)
theorem shr_byte : ∀ p x : Byte, ((x >>> 1) ||| (if p &&& 1#8 = 1#8 then 0x80#8 else 0#8)).toNat = 128 * (p.toNat % 2) + x.toNat / 2 := by
  intro p x
  have h1 : p &&& 1#8 = 1#8 ∧ p.toNat % 2 = 1 ∨ ¬ (p &&& 1#8 = 1#8) ∧ p.toNat % 2 = 0 := by revert p; decide
  rcases h1 with ⟨h, h2⟩ | ⟨h, h2⟩
  · rw [if_pos h, h2]; clear h h2; revert x; decide
  · rw [if_neg h, h2]; clear h h2; revert x; decide
theorem shr_nat : ∀ (l : Bytes) (p : Byte), beNat (shr p l) = ((p.toNat % 2) * 256 ^ l.length + beNat l) / 2
  | [], p => by simp [shr, beNat]
  | x :: xs, p => by
    show beNat (_ :: shr x xs) = _
    rw [Spec.beNat_cons, Spec.beNat_cons, shr_length, shr_nat xs x, shr_byte, List.length_cons, Nat.pow_succ]
    generalize 256 ^ xs.length = P
    generalize beNat xs = N
    generalize p.toNat % 2 = q
    have hx : x.toNat = 2 * (x.toNat / 2) + x.toNat % 2 := by omega
    generalize x.toNat / 2 = a at hx ⊢
    generalize x.toNat % 2 = b at hx ⊢
    rw [hx, Nat.add_mul, Nat.add_mul, show q * (P * 256) = 2 * (128 * q * P) by
      rw [Nat.mul_comm P, ← Nat.mul_assoc, Nat.mul_comm q, ← Nat.mul_assoc, ← Nat.mul_assoc]]
    rw [Nat.mul_assoc 2 a P]
    omega

theorem beNat_set_first (l : Bytes) (hl : 0 < l.length) (p : Byte) :
    beNat (l.set 0 (at8 l 0 ^^^ p)) = beNat l ^^^ (p.toNat * 256 ^ (l.length - 1)) := by
  cases l with
  | nil => simp at hl
  | cons x xs =>
    show beNat ((x ^^^ p) :: xs) = _
    rw [Spec.beNat_cons, Spec.beNat_cons, BitVec.toNat_xor, List.length_cons, Nat.add_sub_cancel]
    have e : (256 : Nat) ^ xs.length = 2 ^ (8 * xs.length) := by rw [Nat.pow_mul]
    have hlt := Spec.beNat_lt xs
    rw [e] at hlt ⊢
    apply Nat.eq_of_testBit_eq
    intro i
    rw [Nat.testBit_xor, Nat.mul_comm, Nat.testBit_two_pow_mul_add _ hlt, Nat.mul_comm x.toNat, Nat.testBit_two_pow_mul_add _ hlt,
      Nat.mul_comm p.toNat, Nat.testBit_two_pow_mul]
    by_cases h : i < 8 * xs.length
    · rw [if_pos h, if_pos h, decide_eq_false (by omega)]; simp
    · rw [if_neg h, if_neg h, Nat.testBit_xor, decide_eq_true (by omega)]; simp

theorem byte_odd : ∀ x : Byte, (x &&& 1#8 = 1#8) ↔ x.toNat % 2 = 1 := by decide
theorem at8_last_odd (l : Bytes) (hl : 0 < l.length) : (at8 l (l.length - 1) &&& 1#8 = 1#8) ↔ beNat l % 2 = 1 := by
  obtain ⟨u, x, rfl⟩ : ∃ u x, l = u ++ [x] := ⟨l.dropLast, l.getLast (List.length_pos_iff.mp hl), (List.dropLast_concat_getLast _).symm⟩
  have e1 : (u ++ [x]).length - 1 = u.length := by simp
  rw [e1, at8_append_right _ _ _ (Nat.le_refl _), Nat.sub_self, Spec.beNat_snoc]
  show x &&& 1#8 = 1#8 ↔ _
  have h : (x &&& 1#8 = 1#8) ↔ x.toNat % 2 = 1 := byte_odd x
  rw [h]; omega

theorem lInv_eq (l : Bytes) (hl : 0 < l.length) : lInvOf l = Spec.half 0x87 l := by
  unfold Spec.half
  have hs : (shr 0 l).length = l.length := shr_length _ _
  refine Spec.eq_beBytes (by unfold lInvOf; rw [List.length_set, List.length_set]; exact hs) ?_
  unfold lInvOf
  dsimp only
  generalize hx : at8 l (l.length - 1) &&& 1#8 = lb
  have ho := at8_last_odd l hl
  rw [hx] at ho
  have h1 := Spec.beNat_set_last ((shr 0 l).set 0 (at8 (shr 0 l) 0 ^^^ (if lb = 1#8 then 0x80#8 else 0#8))) (by rw [List.length_set]; omega) (if lb = 1#8 then 0x43#8 else 0#8)
  rw [List.length_set, hs] at h1
  rw [h1, beNat_set_first _ (by omega), shr_nat, hs]
  rw [show (0 : Byte).toNat % 2 * 256 ^ l.length + beNat l = beNat l by simp]
  by_cases h : lb = 1#8
  · rw [if_pos h, if_pos h, if_pos (ho.mp h), Nat.xor_assoc]
    have : 256 ^ l.length / 2 = 128 * 256 ^ (l.length - 1) := by
      rw [show l.length = (l.length - 1) + 1 by omega, Nat.pow_succ, Nat.add_sub_cancel]; omega
    rw [this]; rfl
  · rw [if_neg h, if_neg h, if_neg (fun h2 => h (ho.mpr h2))]; simp

/-! ### Trailing zeros -/

theorem ntz_spec (n : Nat) (hn : n ≠ 0) : n.testBit (ntz n) = true ∧ ∀ j, j < ntz n → n.testBit j = false := by
  induction n using Nat.strongRecOn with
  | ind n ih =>
    unfold ntz
    by_cases h : n = 0 ∨ n % 2 = 1
    · rw [dif_pos h]
      refine ⟨?_, fun j hj => by omega⟩
      rw [Nat.testBit_zero]; simp; omega
    · rw [dif_neg h]
      obtain ⟨h1, h2⟩ := ih (n / 2) (by omega) (by omega)
      refine ⟨by rw [Nat.testBit_succ]; exact h1, fun j hj => ?_⟩
      cases j with
      | zero => rw [Nat.testBit_zero]; simp; omega
      | succ j => rw [Nat.testBit_succ]; exact h2 j (by omega)
theorem ntz_lt {n k : Nat} (hn : n ≠ 0) (h : n < 2 ^ k) : ntz n < k := by
  have h1 := (ntz_spec n hn).1
  rcases Nat.lt_or_ge (ntz n) k with hk | hk
  · exact hk
  · rw [Nat.testBit_lt_two_pow (Nat.lt_of_lt_of_le h (Nat.pow_le_pow_right (by omega) hk))] at h1; cases h1
theorem ntz_pow (k : Nat) : ntz (2 ^ k) = k := by
  have h := ntz_spec (2 ^ k) (Nat.pos_iff_ne_zero.mp (Nat.two_pow_pos k))
  rcases Nat.lt_trichotomy (ntz (2 ^ k)) k with h1 | h1 | h1
  · have := h.1; rw [Nat.testBit_two_pow] at this; simp at this; omega
  · exact h1
  · have := h.2 k h1; rw [Nat.testBit_two_pow_self] at this; cases this
theorem trailingZeros_eq {n : Nat} (hn : n ≠ 0) (h : n < 2 ^ 64) : trailingZeros (BitVec.ofNat 64 n) = ntz n := by
  obtain ⟨h1, h2⟩ := ntz_spec n hn
  have h3 := ntz_lt hn h
  unfold trailingZeros
  have : (List.range 64).find? (fun i => (BitVec.ofNat 64 n).getLsbD i) = some (ntz n) := by
    rw [List.find?_range_eq_some]
    refine ⟨?_, by rw [List.mem_range]; exact h3, fun j hj => ?_⟩
    · rw [BitVec.getLsbD_ofNat, h1]; simp [h3]
    · rw [BitVec.getLsbD_ofNat, h2 j hj]; simp
  rw [this]; rfl

/-! ### The sums -/

theorem pmacSum_append (R : Nat) (E : Bytes → Bytes) (L : Bytes) (A B : List Bytes) : ∀ i off sum,
    pmacSum R E L i off sum (A ++ B) = pmacSum R E L (i + A.length) (pmacSum R E L i off sum A).1 (pmacSum R E L i off sum A).2 B := by
  induction A with
  | nil => intro i off sum; rfl
  | cons x xs ih =>
    intro i off sum
    rw [List.cons_append]
    show pmacSum R E L (i + 1) _ _ (xs ++ B) = pmacSum R E L (i + (xs.length + 1)) (pmacSum R E L (i + 1) _ _ xs).1 (pmacSum R E L (i + 1) _ _ xs).2 B
    rw [ih, show i + 1 + xs.length = i + (xs.length + 1) by omega]

end Verif.PMAC
