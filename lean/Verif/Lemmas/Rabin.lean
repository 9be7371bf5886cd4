import Verif.Spec.Rabin
import Verif.Model.Rabin
namespace Verif.Rabin
open Polynomial Spec.Rabin

theorem testBit_size {n i : Nat} (h : n.size ≤ i) : n.testBit i = false := by
  apply Nat.testBit_lt_two_pow
  exact Nat.lt_of_lt_of_le n.lt_size_self (Nat.pow_le_pow_right (by decide) h)

theorem poly_coeff (n i : Nat) : (poly n).coeff i = if n.testBit i then 1 else 0 := by
  unfold poly
  rw [finset_sum_coeff]
  by_cases h : i < n.size
  · rw [Finset.sum_eq_single i]
    · split <;> simp
    · intro b _ hb
      split
      · rw [coeff_X_pow, if_neg (Ne.symm hb)]
      · simp
    · intro hi; exact absurd (Finset.mem_range.mpr h) hi
  · rw [Finset.sum_eq_zero, testBit_size (by omega)]
    · simp
    · intro b hb
      have := Finset.mem_range.mp hb
      split
      · rw [coeff_X_pow, if_neg (by omega)]
      · simp

theorem poly_zero : poly 0 = 0 := by
  ext i; rw [poly_coeff]; simp
theorem poly_xor (a b : Nat) : poly (a ^^^ b) = poly a + poly b := by
  ext i
  rw [coeff_add, poly_coeff, poly_coeff, poly_coeff, Nat.testBit_xor]
  cases a.testBit i <;> cases b.testBit i <;> simp
  decide
theorem poly_shl (a k : Nat) : poly (a <<< k) = X ^ k * poly a := by
  ext i
  rw [poly_coeff, coeff_X_pow_mul', Nat.testBit_shiftLeft]
  by_cases h : k ≤ i
  · simp [h, poly_coeff]
  · simp [h]

/-- Congruence modulo `p`. -/
def Cg (p a b : Nat) : Prop := poly p ∣ poly a - poly b

theorem Cg.refl (p a : Nat) : Cg p a a := by unfold Cg; rw [sub_self]; exact dvd_zero _
theorem Cg.symm {p a b : Nat} (h : Cg p a b) : Cg p b a := by
  unfold Cg at *; rw [← neg_sub]; exact (dvd_neg).mpr h
theorem Cg.trans {p a b c : Nat} (h : Cg p a b) (h' : Cg p b c) : Cg p a c := by
  unfold Cg at *; have := dvd_add h h'; rwa [sub_add_sub_cancel] at this
theorem Cg.xor {p a b c d : Nat} (h : Cg p a b) (h' : Cg p c d) : Cg p (a ^^^ c) (b ^^^ d) := by
  unfold Cg at *
  rw [poly_xor, poly_xor, add_sub_add_comm]
  exact dvd_add h h'
theorem Cg.shl {p a b : Nat} (h : Cg p a b) (k : Nat) : Cg p (a <<< k) (b <<< k) := by
  unfold Cg at *
  rw [poly_shl, poly_shl, ← mul_sub]
  exact Dvd.dvd.mul_left h _
theorem Cg.self (p k : Nat) : Cg p (p <<< k) 0 := by
  unfold Cg
  rw [poly_shl, poly_zero, sub_zero]
  exact Dvd.intro_left _ rfl

theorem lt_pow_of_bits {n k : Nat} (h : ∀ i, k ≤ i → n.testBit i = false) : n < 2 ^ k :=
  Nat.lt_pow_two_of_testBit n h

theorem bit_of_lt {n k i : Nat} (h : n < 2 ^ k) (hi : k ≤ i) : n.testBit i = false :=
  Nat.testBit_lt_two_pow (Nat.lt_of_lt_of_le h (Nat.pow_le_pow_right (by decide) hi))

theorem top_bit {n : Nat} (h : 0 < n.size) : n.testBit (n.size - 1) = true := by
  cases hb : n.testBit (n.size - 1) with
  | true => rfl
  | false =>
    exfalso
    have : n < 2 ^ (n.size - 1) := by
      apply lt_pow_of_bits
      intro i hi
      by_cases h1 : i = n.size - 1
      · rw [h1, hb]
      · exact testBit_size (by omega)
    have := Nat.size_le.mpr this
    omega

/-- The long division loop. -/
theorem mod_spec (a b : Nat) (hb : 0 < b.size) : mod a b < 2 ^ (b.size - 1) ∧ Cg b (mod a b) a := by
  unfold mod bitLen add mulX
  simp only
  by_cases hlt : a.size + 1 - b.size = 0
  · rw [hlt, forLoop_nil _ _ _ _ (Nat.le_refl _)]
    refine ⟨?_, Cg.refl _ _⟩
    exact Nat.lt_of_lt_of_le a.lt_size_self (Nat.pow_le_pow_right (by decide) (by omega))
  · generalize hn : a.size + 1 - b.size = n at *
    have key := forLoop_inv (a := 0) (b := n) (fun j (out : Nat) => out < 2 ^ (a.size - j) ∧ Cg b out a)
      (body := fun out j => if out.testBit (n - 1 - j + (b.size - 1)) then out ^^^ b <<< (n - 1 - j) else out)
      (s := a) (Nat.zero_le _) ⟨by simpa using a.lt_size_self, Cg.refl _ _⟩ ?_
    · refine ⟨?_, key.2⟩
      have h1 := key.1
      rw [show a.size - n = b.size - 1 by omega] at h1
      exact h1
    · intro j out _ hj ⟨h1, h2⟩
      have hpos : n - 1 - j + (b.size - 1) = a.size - j - 1 := by omega
      rw [hpos]
      have hbnd : ∀ o : Nat, o < 2 ^ (a.size - j) → o.testBit (a.size - j - 1) = false → o < 2 ^ (a.size - (j + 1)) := by
        intro o ho hbit
        apply lt_pow_of_bits
        intro i hi
        by_cases h : i = a.size - j - 1
        · rw [h, hbit]
        · exact bit_of_lt ho (by omega)
      split
      · rename_i hbit
        constructor
        · apply hbnd
          · apply Nat.xor_lt_two_pow h1
            rw [Nat.shiftLeft_eq]
            calc b * 2 ^ (n - 1 - j) < 2 ^ b.size * 2 ^ (n - 1 - j) :=
                  Nat.mul_lt_mul_of_pos_right b.lt_size_self (Nat.two_pow_pos _)
              _ = 2 ^ (a.size - j) := by rw [← Nat.pow_add]; congr 1; omega
          · rw [Nat.testBit_xor, hbit, Nat.testBit_shiftLeft]
            have := top_bit hb
            rw [show a.size - j - 1 - (n - 1 - j) = b.size - 1 by omega, this]
            simp
            omega
        · have := h2.xor (Cg.self b (n - 1 - j))
          simpa using this
      · rename_i hbit
        exact ⟨hbnd out h1 (by simpa using hbit), h2⟩

theorem poly_degree_lt {n k : Nat} (h : n < 2 ^ k) : (poly n).degree < k := by
  rw [degree_lt_iff_coeff_zero]
  intro m hm
  rw [poly_coeff, bit_of_lt h (by exact_mod_cast hm)]
  rfl

theorem poly_natDegree {p : Nat} (hp : 0 < p.size) : (poly p).degree = ((p.size - 1 : Nat) : WithBot Nat) := by
  apply le_antisymm
  · rw [degree_le_iff_coeff_zero]
    intro m hm
    rw [poly_coeff, testBit_size]
    · rfl
    · have : p.size - 1 < m := by exact_mod_cast hm
      omega
  · apply le_degree_of_ne_zero
    rw [poly_coeff, top_bit hp]
    simp

theorem poly_monic {p : Nat} (hp : 0 < p.size) : (poly p).Monic := by
  rw [Monic, leadingCoeff, natDegree_eq_of_degree_eq_some (poly_natDegree hp), poly_coeff, top_bit hp]
  rfl

/-- A small number congruent to the message is the remainder. -/
theorem poly_eq_residue {p h M : Nat} (hp : 0 < p.size) (hlt : h < 2 ^ (p.size - 1)) (hc : Cg p h M) :
    poly h = poly M %ₘ poly p := by
  have h1 := modByMonic_eq_of_dvd_sub (poly_monic hp) hc
  rw [← h1]
  symm
  rw [modByMonic_eq_self_iff (poly_monic hp), poly_natDegree hp]
  exact poly_degree_lt hlt

theorem sum_bits (n : Nat) : ∀ k, (∑ i ∈ Finset.range k, if n.testBit i then 2 ^ i else 0) = n % 2 ^ k := by
  intro k
  induction k with
  | zero => simp [Nat.mod_one]
  | succ k ih =>
    rw [Finset.sum_range_succ, ih, Nat.mod_pow_succ, Nat.testBit_eq_decide_div_mod_eq]
    rcases Nat.mod_two_eq_zero_or_one (n / 2 ^ k) with h | h <;> simp [h]

theorem fingerprint_eq {p : Nat} {h : U64} {m : Bytes} (hp : 0 < p.size) (hlt : h.toNat < 2 ^ (p.size - 1))
    (hc : Cg p h.toNat (num m)) : h = fingerprint p m := by
  have hr := poly_eq_residue hp hlt hc
  unfold fingerprint residue
  rw [← hr]
  have e : ∀ i, ((poly h.toNat).coeff i = 1) ↔ (h.toNat.testBit i = true) := by
    intro i
    rw [poly_coeff]
    cases h.toNat.testBit i <;> simp
  simp only [e]
  rw [sum_bits, Nat.mod_eq_of_lt h.isLt, BitVec.ofNat_toNat, BitVec.setWidth_eq]

end Verif.Rabin
