import Verif.Model.BLAKE3
/-
The bit tricks of package blake3: highest bit, population count, alignment.
-/
namespace Verif.BLAKE3

theorem mask_ne (s x : Nat) (hx : x < 2 ^ (2 * s)) : (x &&& (2 ^ s - 1) * 2 ^ s ≠ 0) ↔ 2 ^ s ≤ x := by
  have hp := Nat.two_pow_pos s
  have h1 : (x &&& (2 ^ s - 1) * 2 ^ s) % 2 ^ s = 0 := by
    rw [Nat.and_mod_two_pow, Nat.mul_mod_left, Nat.and_zero]
  have h2 : (x &&& (2 ^ s - 1) * 2 ^ s) / 2 ^ s = x / 2 ^ s := by
    rw [Nat.and_div_two_pow, Nat.mul_div_cancel _ hp, Nat.and_two_pow_sub_one_eq_mod, Nat.mod_eq_of_lt]
    rw [Nat.div_lt_iff_lt_mul hp, ← Nat.pow_add]
    exact Nat.lt_of_lt_of_le hx (Nat.pow_le_pow_right (by decide) (by omega))
  have h3 := Nat.div_add_mod (x &&& (2 ^ s - 1) * 2 ^ s) (2 ^ s)
  rw [h1, h2] at h3
  constructor
  · intro h
    apply Nat.le_of_not_lt
    intro hlt
    rw [Nat.div_eq_of_lt hlt] at h3
    omega
  · intro h e
    rw [e] at h3
    have := Nat.div_pos h hp
    have : 2 ^ s * (x / 2 ^ s) ≠ 0 := Nat.mul_ne_zero (by omega) (by omega)
    omega

theorem log2_shift (x s : Nat) (h : 2 ^ s ≤ x) : Nat.log2 x = Nat.log2 (x >>> s) + s := by
  have hp := Nat.two_pow_pos s
  have hx : x ≠ 0 := by omega
  have hq : x >>> s ≠ 0 := by
    rw [Nat.shiftRight_eq_div_pow]; have := Nat.div_pos h hp; omega
  rw [Nat.log2_eq_iff hx]
  have a := Nat.log2_self_le hq
  have b := Nat.lt_log2_self (n := x >>> s)
  rw [Nat.shiftRight_eq_div_pow] at a b ⊢
  rw [Nat.le_div_iff_mul_le hp, ← Nat.pow_add] at a
  rw [Nat.div_lt_iff_lt_mul hp, ← Nat.pow_add] at b
  refine ⟨a, ?_⟩
  rw [show Nat.log2 (x / 2 ^ s) + s + 1 = Nat.log2 (x / 2 ^ s) + 1 + s by omega]
  exact b

/-- One step of `highest_one`. -/
theorem high_step {X x c : Nat} (s : Nat) (mask : Nat) (hm : mask = (2 ^ s - 1) * 2 ^ s) (h0 : 0 < x) (h1 : x < 2 ^ (2 * s))
    (hX : Nat.log2 X = Nat.log2 x + c) :
    ∃ x' c', (if x &&& mask ≠ 0 then (x >>> s, c + s) else (x, c)) = (x', c') ∧ 0 < x' ∧ x' < 2 ^ s ∧ Nat.log2 X = Nat.log2 x' + c' := by
  subst hm
  have hp := Nat.two_pow_pos s
  by_cases h : 2 ^ s ≤ x
  · refine ⟨x >>> s, c + s, if_pos ((mask_ne s x h1).mpr h), ?_, ?_, ?_⟩
    · rw [Nat.shiftRight_eq_div_pow]; exact Nat.div_pos h hp
    · rw [Nat.shiftRight_eq_div_pow, Nat.div_lt_iff_lt_mul hp, ← Nat.pow_add]
      exact Nat.lt_of_lt_of_le h1 (Nat.pow_le_pow_right (by decide) (by omega))
    · have := log2_shift x s h; omega
  · exact ⟨x, c, if_neg (fun hn => h ((mask_ne s x h1).mp hn)), h0, by omega, hX⟩

theorem highest_one_eq (x : Nat) (h0 : 0 < x) (h1 : x < 2 ^ 64) : highest_one x = Nat.log2 x := by
  unfold highest_one
  obtain ⟨x1, c1, e1, p1, l1, g1⟩ := high_step (X := x) (c := 0) 32 0xffffffff00000000 (by decide) h0 h1 (by omega)
  rw [Nat.zero_add] at e1
  rw [e1]
  obtain ⟨x2, c2, e2, p2, l2, g2⟩ := high_step (X := x) 16 0xffff0000 (by decide) p1 l1 g1
  simp only
  rw [e2]
  obtain ⟨x3, c3, e3, p3, l3, g3⟩ := high_step (X := x) 8 0xff00 (by decide) p2 l2 g2
  simp only
  rw [e3]
  obtain ⟨x4, c4, e4, p4, l4, g4⟩ := high_step (X := x) 4 0xf0 (by decide) p3 l3 g3
  simp only
  rw [e4]
  obtain ⟨x5, c5, e5, p5, l5, g5⟩ := high_step (X := x) 2 0xc (by decide) p4 l4 g4
  simp only
  rw [e5]
  obtain ⟨x6, c6, e6, p6, l6, g6⟩ := high_step (X := x) 1 0x2 (by decide) p5 l5 g5
  have hx6 : x6 = 1 := by omega
  subst hx6
  rw [show Nat.log2 1 = 0 by decide, Nat.zero_add] at g6
  rw [g6]
  simp only
  by_cases h : x5 &&& 2 ≠ 0
  · rw [if_pos h] at e6 ⊢
    injection e6
  · rw [if_neg h] at e6 ⊢
    injection e6

theorem round_down_eq (x : Nat) (h0 : 0 < x) (h1 : x < 2 ^ 64) : round_down_to_power_of_2 x = 2 ^ Nat.log2 x := by
  unfold round_down_to_power_of_2
  have hlt : x ||| 1 < 2 ^ 64 := Nat.or_lt_two_pow h1 (by decide)
  have hle : x ≤ x ||| 1 := Nat.left_le_or
  rw [highest_one_eq _ (by omega) hlt, Nat.shiftLeft_eq, Nat.one_mul]
  congr 1
  rw [Nat.log2_eq_iff (by omega)]
  have a := Nat.log2_self_le (show x ≠ 0 by omega)
  have b := Nat.lt_log2_self (n := x)
  refine ⟨by omega, Nat.or_lt_two_pow b ?_⟩
  have := Nat.two_pow_pos (Nat.log2 x)
  rw [Nat.pow_succ]; omega

/-- The sum of the powers of two with the given exponents. -/
def sum2 : List Nat → Nat
  | [] => 0
  | e :: l => 2 ^ e + sum2 l

/-- The exponents from the top of the stack: strictly increasing. -/
def Strict : List Nat → Prop
  | [] => True
  | e :: l => (∀ x ∈ l, e < x) ∧ Strict l

/-- Strictly increasing but for the first two, which may be equal. -/
def Near : List Nat → Prop
  | [] => True
  | e :: l => (∀ x ∈ l, e ≤ x) ∧ Strict l

theorem Strict.near {l : List Nat} (h : Strict l) : Near l := by
  cases l with
  | nil => trivial
  | cons e l => exact ⟨fun x hx => Nat.le_of_lt (h.1 x hx), h.2⟩

theorem sum2_dvd {k : Nat} : ∀ {l : List Nat}, (∀ x ∈ l, k ≤ x) → 2 ^ k ∣ sum2 l
  | [], _ => Nat.dvd_zero _
  | _ :: _, h => Nat.dvd_add (Nat.pow_dvd_pow 2 (h _ (List.mem_cons_self ..))) (sum2_dvd fun x hx => h x (List.mem_cons_of_mem _ hx))

theorem clear_low {h e : Nat} (hd : 2 ^ (e + 1) ∣ h) : (2 ^ e + h) &&& (2 ^ e + h - 1) = h := by
  obtain ⟨q, rfl⟩ := hd
  have hp := Nat.two_pow_pos e
  have hpp : 2 ^ (e + 1) = 2 * 2 ^ e := by rw [Nat.pow_succ]; omega
  have hp2 := Nat.two_pow_pos (e + 1)
  have e1 : (2 ^ e + 2 ^ (e + 1) * q) / 2 ^ (e + 1) = q := by
    rw [Nat.add_mul_div_left _ _ hp2, Nat.div_eq_of_lt (by omega), Nat.zero_add]
  have e2 : (2 ^ e + 2 ^ (e + 1) * q) % 2 ^ (e + 1) = 2 ^ e := by
    rw [Nat.add_mul_mod_self_left, Nat.mod_eq_of_lt (by omega)]
  have e0 : 2 ^ e + 2 ^ (e + 1) * q - 1 = (2 ^ e - 1) + 2 ^ (e + 1) * q := by omega
  have e3 : ((2 ^ e - 1) + 2 ^ (e + 1) * q) / 2 ^ (e + 1) = q := by
    rw [Nat.add_mul_div_left _ _ hp2, Nat.div_eq_of_lt (by omega), Nat.zero_add]
  have e4 : ((2 ^ e - 1) + 2 ^ (e + 1) * q) % 2 ^ (e + 1) = 2 ^ e - 1 := by
    rw [Nat.add_mul_mod_self_left, Nat.mod_eq_of_lt (by omega)]
  rw [e0, ← Nat.div_add_mod ((2 ^ e + 2 ^ (e + 1) * q) &&& ((2 ^ e - 1) + 2 ^ (e + 1) * q)) (2 ^ (e + 1)),
    Nat.and_div_two_pow, Nat.and_mod_two_pow, e1, e2, e3, e4, Nat.and_self, Nat.and_two_pow_sub_one_eq_mod, Nat.mod_self, Nat.add_zero]

theorem popcntLoop_strict : ∀ (l : List Nat) (fuel c : Nat), Strict l → l.length ≤ fuel → popcntLoop fuel (sum2 l) c = c + l.length
  | [], fuel, c, _, _ => by cases fuel <;> simp [popcntLoop, sum2]
  | e :: l, fuel, c, h, hf => by
    cases fuel with
    | zero => simp at hf
    | succ fuel =>
      have hp := Nat.two_pow_pos e
      unfold popcntLoop
      rw [if_pos (by simp only [sum2]; omega)]
      simp only [sum2]
      rw [clear_low (sum2_dvd fun x hx => h.1 x hx), popcntLoop_strict l fuel (c + 1) h.2 (by simp only [List.length_cons] at hf; omega)]
      simp only [List.length_cons]; omega

theorem strict_length {k : Nat} : ∀ {l : List Nat} {a : Nat}, Strict l → (∀ x ∈ l, a ≤ x) → sum2 l < 2 ^ k → l.length ≤ k - a
  | [], _, _, _, _ => by simp
  | e :: l, a, h, ha, hs => by
    have hp : 2 ^ e < 2 ^ k := by simp only [sum2] at hs; omega
    have hek : e < k := (Nat.pow_lt_pow_iff_right (by decide)).mp hp
    have := strict_length (k := k) (l := l) (a := e + 1) h.2 (fun x hx => h.1 x hx) (by have := Nat.two_pow_pos e; simp only [sum2] at hs; omega)
    have := ha e (List.mem_cons_self ..)
    simp only [List.length_cons]; omega

theorem popcnt_strict {l : List Nat} (h : Strict l) (hs : sum2 l < 2 ^ 64) : popcnt (sum2 l) = l.length := by
  unfold popcnt
  rw [popcntLoop_strict l 64 0 h (by have := strict_length (a := 0) h (fun _ _ => Nat.zero_le _) hs; omega), Nat.zero_add]

/-- Merging the two equal trees on top. -/
theorem Near.merge {e : Nat} {l : List Nat} (h : Near (e :: e :: l)) : Near ((e + 1) :: l) :=
  ⟨fun x hx => h.2.1 x hx, h.2.2⟩
theorem sum2_merge (e : Nat) (l : List Nat) : sum2 ((e + 1) :: l) = sum2 (e :: e :: l) := by
  simp only [sum2]; rw [Nat.pow_succ]; omega

theorem Near.cases {l : List Nat} (h : Near l) : Strict l ∨ ∃ e l', l = e :: e :: l' := by
  cases l with
  | nil => exact Or.inl trivial
  | cons e l =>
    cases l with
    | nil => exact Or.inl ⟨by simp, trivial⟩
    | cons f l =>
      have hle := h.1 f (List.mem_cons_self ..)
      by_cases hef : e = f
      · subst hef; exact Or.inr ⟨e, l, rfl⟩
      · refine Or.inl ⟨fun x hx => ?_, h.2⟩
        rcases List.mem_cons.mp hx with rfl | hx
        · omega
        · have := h.2.1 x hx; omega

theorem popcnt_near : ∀ (n : Nat) {l : List Nat}, l.length = n → Near l → sum2 l < 2 ^ 64 → popcnt (sum2 l) ≤ l.length := by
  intro n
  induction n with
  | zero =>
    intro l hl h hs
    rcases h.cases with h | ⟨e, l', rfl⟩
    · exact Nat.le_of_eq (popcnt_strict h hs)
    · simp at hl
  | succ n ih =>
    intro l hl h hs
    rcases h.cases with h | ⟨e, l', rfl⟩
    · exact Nat.le_of_eq (popcnt_strict h hs)
    · rw [← sum2_merge] at hs ⊢
      have := ih (l := (e + 1) :: l') (by simp only [List.length_cons] at hl ⊢; omega) h.merge hs
      simp only [List.length_cons] at this ⊢; omega

theorem popcnt_lt {e : Nat} {l : List Nat} (h : Near (e :: e :: l)) (hs : sum2 (e :: e :: l) < 2 ^ 64) :
    popcnt (sum2 (e :: e :: l)) < (e :: e :: l).length := by
  rw [← sum2_merge] at hs ⊢
  have := popcnt_near _ rfl h.merge hs
  simp only [List.length_cons] at this ⊢; omega

theorem alignLoop_spec (count : Nat) (hc : 2 ^ 10 ∣ count) : ∀ (fuel a : Nat), 10 ≤ a → a ≤ fuel + 10 →
    ∃ b, alignLoop count fuel (2 ^ a) = 2 ^ b ∧ 10 ≤ b ∧ b ≤ a ∧ 2 ^ b ∣ count
  | 0, a, h1, h2 => by
    have : a = 10 := by omega
    subst this
    exact ⟨10, rfl, by omega, by omega, hc⟩
  | fuel + 1, a, h1, h2 => by
    unfold alignLoop
    by_cases h : (2 ^ a - 1) &&& count ≠ 0
    · rw [if_pos h]
      have ha : 10 < a := by
        apply Nat.lt_of_le_of_ne h1
        intro e
        subst e
        apply h
        rw [Nat.and_comm, Nat.and_two_pow_sub_one_eq_mod]
        exact Nat.mod_eq_zero_of_dvd hc
      have e2 : 2 ^ a / 2 = 2 ^ (a - 1) := by
        rw [show 2 ^ a = 2 ^ (a - 1) * 2 by rw [← Nat.pow_succ]; congr 1; omega]
        exact Nat.mul_div_cancel _ (by decide)
      rw [e2]
      obtain ⟨b, hb, g1, g2, g3⟩ := alignLoop_spec count hc fuel (a - 1) (by omega) (by omega)
      exact ⟨b, hb, g1, by omega, g3⟩
    · rw [if_neg h]
      refine ⟨a, rfl, h1, Nat.le_refl _, ?_⟩
      have h' : (2 ^ a - 1) &&& count = 0 := by omega
      rw [Nat.and_comm, Nat.and_two_pow_sub_one_eq_mod] at h'
      exact Nat.dvd_of_mod_eq_zero h'

end Verif.BLAKE3
