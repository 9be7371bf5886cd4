import Verif.Lemmas.Lyra2
import Mathlib.Data.Nat.GCD.Basic
namespace Verif.Lyra2

/-- Step of window `2^k`. -/
def stepK (k : Nat) : Nat := if k ≤ 1 then 1 else if k % 2 = 0 then 2 ^ (k - 1) + 1 else 2 ^ (k - 1) - 1

theorem star_eq {row k : Nat} (h1 : 2 ^ k ≤ row) (h2 : row < 2 ^ (k + 1)) : Spec.Lyra2.star row = (row - 2 ^ k) * stepK k % 2 ^ k := by
  have : Nat.log2 row = k := (Nat.log2_eq_iff (by have := Nat.two_pow_pos k; omega)).2 ⟨h1, h2⟩
  unfold Spec.Lyra2.star stepK
  rw [this]

theorem star_lt {row : Nat} (h : row ≠ 0) : Spec.Lyra2.star row < row ∨ row = 1 := by
  by_cases h1 : row = 1
  · exact Or.inr h1
  left
  have hk := (Nat.log2_eq_iff (k := Nat.log2 row) h).1 rfl
  rw [star_eq hk.1 hk.2]
  exact Nat.lt_of_lt_of_le (Nat.mod_lt _ (Nat.two_pow_pos _)) hk.1

theorem stepK_odd (k : Nat) : stepK k % 2 = 1 := by
  unfold stepK
  split
  · rfl
  · obtain ⟨n, rfl⟩ : ∃ n, k = n + 2 := ⟨k - 2, by omega⟩
    rw [show n + 2 - 1 = n + 1 from rfl, Nat.pow_succ]
    have := Nat.two_pow_pos n
    split <;> omega

theorem step_ne {k j : Nat} (h0 : 0 < j) (h1 : j < 2 ^ k) : j * stepK k % 2 ^ k ≠ 0 := by
  intro h
  have hd := Nat.dvd_of_mod_eq_zero h
  have hc : Nat.Coprime (2 ^ k) (stepK k) := by
    apply Nat.Coprime.pow_left
    have := stepK_odd k
    show Nat.gcd 2 (stepK k) = 1
    rw [Nat.gcd_rec, this]; rfl
  have := Nat.le_of_dvd h0 (hc.dvd_of_dvd_mul_right hd)
  omega

theorem and_window (x : U64) {k : Nat} (hk : k < 64) : (x &&& (BitVec.ofNat 64 (2 ^ k) - 1#64)).toNat = x.toNat % 2 ^ k := by
  have hlt : 2 ^ k < 2 ^ 64 := Nat.pow_lt_pow_right (by decide) hk
  have : (BitVec.ofNat 64 (2 ^ k) - 1#64).toNat = 2 ^ k - 1 := by
    rw [BitVec.toNat_sub, show (BitVec.ofNat 64 (2 ^ k)).toNat = 2 ^ k from Nat.mod_eq_of_lt hlt]
    have := Nat.two_pow_pos k
    rw [show (1#64).toNat = 1 from rfl, show 2 ^ 64 - 1 + 2 ^ k = (2 ^ k - 1) + 2 ^ 64 by omega, Nat.add_mod_right, Nat.mod_eq_of_lt (by omega)]
  rw [BitVec.toNat_and, this, Nat.and_two_pow_sub_one_eq_mod]

/-- Variables of the setup before row `row` of window `2^k`. -/
structure Inv (R C k : Nat) (t : Setup) (st : List U64 × Spec.Lyra2.Mat) : Prop where
  k1 : 1 ≤ k
  lo : 2 ^ k ≤ t.row
  hi : t.row < 2 ^ (k + 1)
  le : t.row ≤ R
  prev : t.prev = t.row - 1
  rowa : t.rowa.toNat = (t.row - 2 ^ k) * stepK k % 2 ^ k
  step : t.step = BitVec.ofNat 64 (stepK k)
  window : t.window = BitVec.ofNat 64 (2 ^ k)
  gap : t.gap = if k % 2 = 1 then 1#64 else 0#64 - 1#64
  rel : Rel R C (fun r _ => r < t.row) t.x st

/-- Body of the loop. -/
def setupStep (C : Nat) (t : Setup) : Setup :=
  let x := reducedDuplexRowSetup t.x (t.prev * (12 * C)) (t.rowa.toNat * (12 * C)) (t.row * (12 * C)) C
  let rowa := (t.rowa + t.step) &&& (t.window - 1#64)
  let u : Setup := { t with x := x, rowa := rowa, prev := t.row, row := t.row + 1 }
  if rowa = 0#64 then { u with step := t.window + t.gap, window := t.window * 2#64, gap := 0#64 - t.gap } else u

theorem stepK_lt (k : Nat) : stepK k < 2 ^ k + 2 := by
  unfold stepK
  split
  · have := Nat.two_pow_pos k; omega
  · obtain ⟨n, rfl⟩ : ∃ n, k = n + 2 := ⟨k - 2, by omega⟩
    rw [show n + 2 - 1 = n + 1 from rfl, Nat.pow_succ 2 (n + 1)]
    split <;> omega

theorem next_step {k : Nat} (h1 : 1 ≤ k) : BitVec.ofNat 64 (2 ^ k) + (if k % 2 = 1 then 1#64 else 0#64 - 1#64) = BitVec.ofNat 64 (stepK (k + 1)) := by
  unfold stepK
  rw [if_neg (show ¬ k + 1 ≤ 1 by omega), Nat.add_sub_cancel]
  by_cases h : k % 2 = 1
  · rw [if_pos h, if_pos (by omega), BitVec.ofNat_add]
  · rw [if_neg h, if_neg (by omega)]
    have := Nat.two_pow_pos k
    obtain ⟨n, hn⟩ : ∃ n, 2 ^ k = n + 1 := ⟨2 ^ k - 1, by omega⟩
    rw [hn, BitVec.ofNat_add, Nat.add_sub_cancel]
    generalize BitVec.ofNat 64 n = y
    rw [BitVec.add_assoc, show BitVec.ofNat 64 1 + (0#64 - 1#64) = 0#64 by decide, BitVec.add_zero]

theorem setup_step {R C k : Nat} (hR : R < 2 ^ 62) {t : Setup} {st : List U64 × Spec.Lyra2.Mat} (h : Inv R C k t st) (hr : t.row < R) :
    ∃ k', Inv R C k' (setupStep C t) (Spec.Lyra2.setupRow C t.row (Spec.Lyra2.star t.row) st) := by
  have hlo := h.lo
  have hk : k < 62 := by
    rcases Nat.lt_or_ge k 62 with h' | h'
    · exact h'
    · have := Nat.pow_le_pow_right (show 0 < 2 by decide) h'
      omega
  have hw : 2 ^ k < 2 ^ 62 := Nat.pow_lt_pow_right (by decide) hk
  have hpos := Nat.two_pow_pos k
  have hsk := stepK_lt k
  have hstar : t.rowa.toNat = Spec.Lyra2.star t.row := by rw [h.rowa, star_eq h.lo h.hi]
  have hst : Spec.Lyra2.star t.row < t.row := (star_lt (by omega)).resolve_right (by have := Nat.pow_le_pow_right (show 0 < 2 by decide) h.k1; omega)
  have hrel := setupRow_rel (R := R) (C := C) (row := t.row) (star := Spec.Lyra2.star t.row) (by omega) hr hst h.rel
  rw [← hstar, ← h.prev] at hrel
  have hra : ((t.rowa + t.step) &&& (t.window - 1#64)).toNat = (t.row + 1 - 2 ^ k) * stepK k % 2 ^ k := by
    rw [h.window, and_window _ (by omega), BitVec.toNat_add, h.step, BitVec.toNat_ofNat, h.rowa, Nat.mod_mod_of_dvd _ (Nat.pow_dvd_pow 2 (by omega)),
      Nat.mod_eq_of_lt (a := stepK k) (by omega), Nat.mod_add_mod, show t.row + 1 - 2 ^ k = (t.row - 2 ^ k) + 1 by omega, Nat.add_mul, Nat.one_mul]
  rw [hstar] at hrel
  unfold setupStep
  dsimp only
  by_cases hz : t.row + 1 = 2 ^ (k + 1)
  · have hz' : (t.rowa + t.step) &&& (t.window - 1#64) = 0#64 := by
      apply BitVec.eq_of_toNat_eq
      rw [hra, show t.row + 1 - 2 ^ k = 2 ^ k by rw [hz, Nat.pow_succ]; omega, Nat.mul_mod_right]
      rfl
    rw [if_pos hz']
    refine ⟨k + 1, by omega, ?_, ?_, ?_, ?_, ?_, ?_, ?_, ?_, ?_⟩
    · show 2 ^ (k + 1) ≤ t.row + 1; omega
    · show t.row + 1 < 2 ^ (k + 1 + 1); rw [hz, Nat.pow_succ 2 (k + 1)]; have := Nat.two_pow_pos (k + 1); omega
    · exact hr
    · rfl
    · show ((t.rowa + t.step) &&& (t.window - 1#64)).toNat = (t.row + 1 - 2 ^ (k + 1)) * stepK (k + 1) % 2 ^ (k + 1)
      rw [hz', hz, Nat.sub_self, Nat.zero_mul, Nat.zero_mod]; rfl
    · show t.window + t.gap = _
      rw [h.window, h.gap, next_step h.k1]
    · show t.window * 2#64 = _
      rw [h.window, Nat.pow_succ, BitVec.ofNat_mul]
    · show 0#64 - t.gap = _
      rw [h.gap]
      by_cases ho : k % 2 = 1
      · rw [if_pos ho, if_neg (by omega)]
      · rw [if_neg ho, if_pos (by omega)]; decide
    · rw [hstar]; exact hrel
  · have hhi := h.hi
    have hz' : ¬ (t.rowa + t.step) &&& (t.window - 1#64) = 0#64 := by
      intro he
      rw [he] at hra
      refine step_ne (k := k) (j := t.row + 1 - 2 ^ k) (by omega) ?_ hra.symm
      rw [Nat.pow_succ] at hhi hz; omega
    rw [if_neg hz']
    refine ⟨k, h.k1, ?_, ?_, ?_, ?_, ?_, ?_, ?_, ?_, ?_⟩
    · show 2 ^ k ≤ t.row + 1; omega
    · show t.row + 1 < 2 ^ (k + 1); omega
    · exact hr
    · rfl
    · exact hra
    · exact h.step
    · exact h.window
    · exact h.gap
    · rw [hstar]; exact hrel

theorem setupLoop_step {R C k fuel : Nat} {t : Setup} {st : List U64 × Spec.Lyra2.Mat} (h : Inv R C k t st) (hr : t.row < R) :
    setupLoop R C (fuel + 1) t = setupLoop R C fuel (setupStep C t) := by
  have hlo := h.lo
  have hp := h.prev
  have := Nat.mod_lt ((t.row - 2 ^ k) * stepK k) (Nat.two_pow_pos k)
  rw [setupLoop, if_pos hr, if_pos ⟨by omega, by rw [h.rowa]; omega⟩]
  rfl

theorem setup_loop {R C : Nat} (hR : R < 2 ^ 62) (n : Nat) : ∀ (k fuel : Nat) (t : Setup) (st : List U64 × Spec.Lyra2.Mat), Inv R C k t st → R = t.row + n → n ≤ fuel →
    ∃ k' t', setupLoop R C fuel t = some t' ∧ t'.row = R ∧
      Inv R C k' t' ((List.range n).foldl (fun st i => Spec.Lyra2.setupRow C (t.row + i) (Spec.Lyra2.star (t.row + i)) st) st) := by
  induction n with
  | zero =>
    intro k fuel t st h he hf
    refine ⟨k, t, ?_, by omega, h⟩
    cases fuel with
    | zero => rfl
    | succ f => rw [setupLoop, if_neg (by omega)]
  | succ n ih =>
    intro k fuel t st h he hf
    obtain ⟨f, rfl⟩ : ∃ f, fuel = f + 1 := ⟨fuel - 1, by omega⟩
    obtain ⟨k', h'⟩ := setup_step hR h (by omega)
    have hrow : (setupStep C t).row = t.row + 1 := by unfold setupStep; dsimp only; split <;> rfl
    obtain ⟨k'', t', e1, e2, e3⟩ := ih k' f _ _ h' (by rw [hrow]; omega) (by omega)
    refine ⟨k'', t', ?_, e2, ?_⟩
    · rw [setupLoop_step h (by omega), e1]
    · rw [List.range_succ_eq_map, List.foldl_cons, List.foldl_map]
      rw [hrow] at e3
      simp only [Nat.add_zero, Nat.succ_eq_add_one]
      simpa only [Nat.add_assoc, Nat.add_comm 1] using e3

end Verif.Lyra2
