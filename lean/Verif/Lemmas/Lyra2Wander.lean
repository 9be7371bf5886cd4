import Verif.Lemmas.Lyra2Setup
namespace Verif.Lyra2

/-- Variables of the wandering phase. -/
structure WInv (R C : Nat) (t : Wander) (w : Spec.Lyra2.Wander) : Prop where
  rel : Rel R C (fun r _ => r < R) t.x w.st
  prev : t.prev = w.prev
  lt : w.prev < R
  rowa : t.rowa.toNat = w.star
  star : w.star < R

/-- One row of the specification. -/
def passRow (R C step : Nat) (w : Spec.Lyra2.Wander) (k : Nat) : Spec.Lyra2.Wander :=
  ⟨Spec.Lyra2.wanderRow C w.prev ((w.st.1.getD 0 0#64).toNat % R) (k * step % R) w.st, k * step % R, (w.st.1.getD 0 0#64).toNat % R⟩

theorem wander_row {R C : Nat} (hR : 2 ≤ R) (hR' : R < 2 ^ 62) (step k : Nat) {t : Wander} {w : Spec.Lyra2.Wander} (h : WInv R C t w) (hrow : t.row = (k * step % R : Nat)) (fuel : Nat) :
    ∃ u, WInv R C u (passRow R C step w k) ∧ u.row = ((k + 1) * step % R : Nat) ∧
      wanderLoop R C step (fuel + 1) t = if u.row = 0 then some u else wanderLoop R C step fuel u := by
  have hpos : 0 < R := by omega
  have hm := Nat.mod_lt (k * step) hpos
  have hra : (t.x.state.getD 0 0#64 % BitVec.ofNat 64 R).toNat = (w.st.1.getD 0 0#64).toNat % R := by
    rw [BitVec.toNat_umod, h.rel.stEq, show (BitVec.ofNat 64 R).toNat = R from Nat.mod_eq_of_lt (by omega)]
  have hl := Nat.mod_lt (w.st.1.getD 0 0#64).toNat hpos
  have hn : (t.row + (step : Int)).tmod R = ((k + 1) * step % R : Nat) := by
    rw [hrow]
    rw [show ((k * step % R : Nat) : Int) + (step : Int) = ((k * step % R + step : Nat) : Int) by omega, ← Int.ofNat_tmod, Nat.mod_add_mod, Nat.add_mul, Nat.one_mul]
  have hto : t.row.toNat = k * step % R := by rw [hrow, Int.toNat_natCast]
  refine ⟨⟨reducedDuplexRow t.x (t.prev * (12 * C)) ((t.x.state.getD 0 0#64 % BitVec.ofNat 64 R).toNat * (12 * C)) (t.row.toNat * (12 * C)) C, (t.row + (step : Int)).tmod R, t.row.toNat,
    t.x.state.getD 0 0#64 % BitVec.ofNat 64 R⟩, ⟨?_, hto, ?_, hra, hl⟩, hn, ?_⟩
  · dsimp only
    rw [hra, hto, h.prev]
    exact wanderRow_rel h.lt hl hm h.rel
  · exact hm
  · rw [wanderLoop]
    dsimp only
    rw [if_pos]
    refine ⟨by rw [h.prev]; exact h.lt, by rw [hra]; exact hl, ?_, ?_⟩ <;> rw [hrow] <;> omega

theorem row_zero_iff {R step k : Nat} (hR : 2 ≤ R) : k * step % R = 0 ↔ R / Nat.gcd R step ∣ k := by
  have hg : 0 < Nat.gcd R step := Nat.gcd_pos_of_pos_left _ (by omega)
  constructor
  · intro h
    have hd := Nat.dvd_of_mod_eq_zero h
    have hc : Nat.Coprime (R / Nat.gcd R step) (step / Nat.gcd R step) := Nat.coprime_div_gcd_div_gcd hg
    apply hc.dvd_of_dvd_mul_right
    obtain ⟨c, hc'⟩ := hd
    refine ⟨c, ?_⟩
    apply Nat.eq_of_mul_eq_mul_right hg
    rw [Nat.mul_assoc, Nat.div_mul_cancel (Nat.gcd_dvd_right R step), hc', Nat.mul_right_comm, Nat.div_mul_cancel (Nat.gcd_dvd_left R step)]
  · rintro ⟨c, rfl⟩
    apply Nat.mod_eq_zero_of_dvd
    refine ⟨c * (step / Nat.gcd R step), ?_⟩
    have h1 := Nat.div_mul_cancel (Nat.gcd_dvd_right R step)
    have h2 := Nat.div_mul_cancel (Nat.gcd_dvd_left R step)
    calc R / Nat.gcd R step * c * step = R / Nat.gcd R step * c * (step / Nat.gcd R step * Nat.gcd R step) := by rw [h1]
      _ = (R / Nat.gcd R step * Nat.gcd R step) * (c * (step / Nat.gcd R step)) := by
        generalize R / Nat.gcd R step = a
        generalize step / Nat.gcd R step = b
        generalize Nat.gcd R step = g
        rw [Nat.mul_assoc a c, Nat.mul_assoc a g]
        congr 1
        rw [← Nat.mul_assoc, Nat.mul_comm]
      _ = R * (c * (step / Nat.gcd R step)) := by rw [h2]

theorem wander_loop {R C : Nat} (hR : 2 ≤ R) (hR' : R < 2 ^ 62) (step : Nat) (n : Nat) : ∀ (k fuel : Nat) (t : Wander) (w : Spec.Lyra2.Wander), WInv R C t w → t.row = (k * step % R : Nat) →
    k + n + 1 = R / Nat.gcd R step → n + 1 ≤ fuel →
    ∃ u, wanderLoop R C step fuel t = some u ∧ u.row = 0 ∧ WInv R C u ((List.range (n + 1)).foldl (fun w i => passRow R C step w (k + i)) w) := by
  induction n with
  | zero =>
    intro k fuel t w h hrow hk hf
    obtain ⟨f, rfl⟩ : ∃ f, fuel = f + 1 := ⟨fuel - 1, by omega⟩
    obtain ⟨u, h1, h2, h3⟩ := wander_row hR hR' step k h hrow f
    have hz : (k + 1) * step % R = 0 := (row_zero_iff hR).2 ⟨1, by omega⟩
    rw [hz] at h2
    refine ⟨u, ?_, h2, ?_⟩
    · rw [h3, if_pos (by rw [h2]; rfl)]
    · exact h1
  | succ n ih =>
    intro k fuel t w h hrow hk hf
    obtain ⟨f, rfl⟩ : ∃ f, fuel = f + 1 := ⟨fuel - 1, by omega⟩
    obtain ⟨u, h1, h2, h3⟩ := wander_row hR hR' step k h hrow f
    have hz : (k + 1) * step % R ≠ 0 := fun hz => by
      have := Nat.le_of_dvd (by omega) ((row_zero_iff hR).1 hz)
      omega
    obtain ⟨v, e1, e2, e3⟩ := ih (k + 1) f u _ h1 h2 (by omega) (by omega)
    refine ⟨v, ?_, e2, ?_⟩
    · rw [h3, if_neg (by rw [h2]; omega), e1]
    · rw [List.range_succ_eq_map, List.foldl_cons, List.foldl_map]
      simp only [Nat.add_zero, Nat.succ_eq_add_one]
      simpa only [Nat.add_assoc, Nat.add_comm 1] using e3

theorem wander_pass {R C : Nat} (hR : 2 ≤ R) (hR' : R < 2 ^ 62) (step : Nat) {t : Wander} {w : Spec.Lyra2.Wander} (h : WInv R C t w) (hrow : t.row = 0) :
    ∃ u, wanderLoop R C step R t = some u ∧ u.row = 0 ∧ WInv R C u (Spec.Lyra2.pass R C step w) := by
  have hg : 0 < Nat.gcd R step := Nat.gcd_pos_of_pos_left _ (by omega)
  have hN : 0 < R / Nat.gcd R step := Nat.div_pos (Nat.le_of_dvd (by omega) (Nat.gcd_dvd_left R step)) hg
  have hN' : R / Nat.gcd R step ≤ R := Nat.div_le_self _ _
  obtain ⟨u, h1, h2, h3⟩ := wander_loop hR hR' step (R / Nat.gcd R step - 1) 0 R t w h (by rw [hrow, Nat.zero_mul, Nat.zero_mod]; rfl) (by omega) (by omega)
  refine ⟨u, h1, h2, ?_⟩
  rw [show R / Nat.gcd R step - 1 + 1 = R / Nat.gcd R step by omega] at h3
  unfold Spec.Lyra2.pass
  simpa only [Nat.zero_add, passRow] using h3

theorem wander_neg {R C : Nat} (hR : 2 ≤ R) (t : Wander) (hrow : t.row = 0) : wanderLoop R C (-1) R t = none := by
  obtain ⟨f, rfl⟩ : ∃ f, R = f + 2 := ⟨R - 2, by omega⟩
  rw [wanderLoop]
  dsimp only
  split
  · have : (t.row + -1).tmod ((f + 2 : Nat) : Int) = -1 := by
      rw [hrow, Int.zero_add, Int.neg_tmod]
      have : (1 : Int).tmod ((f + 2 : Nat) : Int) = 1 := by
        rw [Int.tmod_eq_of_lt (by decide) (by omega)]
      rw [this]
    rw [this, if_neg (by decide), wanderLoop]
    dsimp only
    rw [if_neg]
    rintro ⟨_, _, h, _⟩
    exact absurd h (by decide)
  · rfl

theorem timeLoop_one {R C : Nat} (hR : 2 ≤ R) (hR' : R < 2 ^ 62) {t : Wander} {w : Spec.Lyra2.Wander} (h : WInv R C t w) (hrow : t.row = 0) :
    ∃ u, timeLoop R C 1 1 t = some u ∧ WInv R C u (Spec.Lyra2.wander 1 R C w) := by
  obtain ⟨u, h1, h2, h3⟩ := wander_pass hR hR' (R / 2 - 1) h hrow
  refine ⟨u, ?_, h3⟩
  rw [timeLoop]
  rw [if_neg (by decide), show ((R / 2 : Nat) : Int) - 1 = ((R / 2 - 1 : Nat) : Int) by omega, h1]
  rfl

theorem timeLoop_more {R C T : Nat} (hR : 2 ≤ R) (hR' : R < 2 ^ 62) {t : Wander} {w : Spec.Lyra2.Wander} (h : WInv R C t w) (hrow : t.row = 0) : timeLoop R C (T + 2) 1 t = none := by
  obtain ⟨u, h1, h2, h3⟩ := wander_pass hR hR' (R / 2 - 1) h hrow
  rw [timeLoop]
  rw [if_neg (by decide), show ((R / 2 : Nat) : Int) - 1 = ((R / 2 - 1 : Nat) : Int) by omega, h1]
  show timeLoop R C (T + 1) 2 u = none
  rw [timeLoop]
  rw [if_pos (by decide), wander_neg hR u h2]
  rfl

end Verif.Lyra2
