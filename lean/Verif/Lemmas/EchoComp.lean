import Verif.Lemmas.EchoRound
/-
Package echo: BIG.MixColumns, the rounds, BIG.Final.
-/
namespace Verif.Echo
open Spec.AES (coef)
open Spec.Groestl (sbox mul xtime)
open LSH (getD_set' getD_map_range ext_getD)

/-- The new value of entry j: the entries 8 c + p, p + 2, … of the same column and parity. -/
def mixVal (w : List U64) (j : Nat) : U64 :=
  let g (r : Nat) := w.getD (8 * (j / 8) + 2 * ((j / 2 + r) % 4) + j % 2) 0
  dbl (g 0) ^^^ dbl (g 1) ^^^ g 1 ^^^ g 2 ^^^ g 3

def cls (j : Nat) : Nat := 8 * (j / 8) + j % 2

theorem mixCol_length (w : List U64) (i : Nat) : (mixCol w i).length = w.length := by simp [mixCol]

theorem mixCol_get (w : List U64) (hw : w.length = 32) (i j : Nat) (hi : i % 8 < 2) (hi2 : i < 32) :
    (mixCol w i).getD j 0 = if cls j = i ∧ j < 32 then mixVal w j else w.getD j 0 := by
  unfold mixCol
  dsimp only
  rw [getD_set', getD_set', getD_set', getD_set']
  simp only [List.length_set, hw]
  by_cases h : cls j = i ∧ j < 32
  · rw [if_pos h]
    obtain ⟨h1, h2⟩ := h
    unfold cls at h1
    unfold mixVal
    dsimp only
    have hr : j / 2 % 4 = 0 ∨ j / 2 % 4 = 1 ∨ j / 2 % 4 = 2 ∨ j / 2 % 4 = 3 := by omega
    rcases hr with hr | hr | hr | hr
    · rw [if_neg (by omega), if_neg (by omega), if_neg (by omega), if_pos (by omega)]
      rw [show 8 * (j / 8) + 2 * ((j / 2 + 0) % 4) + j % 2 = i by omega, show 8 * (j / 8) + 2 * ((j / 2 + 1) % 4) + j % 2 = i + 2 by omega,
        show 8 * (j / 8) + 2 * ((j / 2 + 2) % 4) + j % 2 = i + 4 by omega, show 8 * (j / 8) + 2 * ((j / 2 + 3) % 4) + j % 2 = i + 6 by omega]
    · rw [if_neg (by omega), if_neg (by omega), if_pos (by omega)]
      rw [show 8 * (j / 8) + 2 * ((j / 2 + 0) % 4) + j % 2 = i + 2 by omega, show 8 * (j / 8) + 2 * ((j / 2 + 1) % 4) + j % 2 = i + 4 by omega,
        show 8 * (j / 8) + 2 * ((j / 2 + 2) % 4) + j % 2 = i + 6 by omega, show 8 * (j / 8) + 2 * ((j / 2 + 3) % 4) + j % 2 = i by omega]
    · rw [if_neg (by omega), if_pos (by omega)]
      rw [show 8 * (j / 8) + 2 * ((j / 2 + 0) % 4) + j % 2 = i + 4 by omega, show 8 * (j / 8) + 2 * ((j / 2 + 1) % 4) + j % 2 = i + 6 by omega,
        show 8 * (j / 8) + 2 * ((j / 2 + 2) % 4) + j % 2 = i by omega, show 8 * (j / 8) + 2 * ((j / 2 + 3) % 4) + j % 2 = i + 2 by omega]
    · rw [if_pos (by omega)]
      rw [show 8 * (j / 8) + 2 * ((j / 2 + 0) % 4) + j % 2 = i + 6 by omega, show 8 * (j / 8) + 2 * ((j / 2 + 1) % 4) + j % 2 = i by omega,
        show 8 * (j / 8) + 2 * ((j / 2 + 2) % 4) + j % 2 = i + 2 by omega, show 8 * (j / 8) + 2 * ((j / 2 + 3) % 4) + j % 2 = i + 4 by omega]
  · rw [if_neg h]
    unfold cls at h
    rw [if_neg (by omega), if_neg (by omega), if_neg (by omega), if_neg (by omega)]

theorem mixCols_get (L : List Nat) : ∀ (w : List U64), w.length = 32 → L.Nodup → (∀ i ∈ L, i % 8 < 2 ∧ i < 32) → ∀ j, j < 32 →
    (L.foldl mixCol w).length = 32 ∧ (L.foldl mixCol w).getD j 0 = if cls j ∈ L then mixVal w j else w.getD j 0 := by
  induction L with
  | nil => intro w hw _ _ j _; exact ⟨hw, by simp⟩
  | cons a L ih =>
    intro w hw hn hL j hj
    obtain ⟨ha, hn'⟩ := List.nodup_cons.1 hn
    obtain ⟨a1, a2⟩ := hL a List.mem_cons_self
    obtain ⟨l, g⟩ := ih (mixCol w a) (by rw [mixCol_length, hw]) hn' (fun i hi => hL i (List.mem_cons_of_mem _ hi)) j hj
    rw [List.foldl_cons]
    refine ⟨l, ?_⟩
    rw [g]
    by_cases h : cls j ∈ L
    · rw [if_pos h, if_pos (List.mem_cons_of_mem _ h)]
      have hne : cls j ≠ a := fun e => ha (e ▸ h)
      have hg : ∀ r, (mixCol w a).getD (8 * (j / 8) + 2 * ((j / 2 + r) % 4) + j % 2) 0 = w.getD (8 * (j / 8) + 2 * ((j / 2 + r) % 4) + j % 2) 0 := by
        intro r
        rw [mixCol_get w hw _ _ a1 a2, if_neg]
        rintro ⟨e, -⟩
        apply hne
        rw [← e]; unfold cls; omega
      unfold mixVal
      dsimp only
      rw [hg, hg, hg, hg]
    · rw [if_neg h, mixCol_get w hw _ _ a1 a2]
      by_cases e : cls j = a
      · rw [if_pos ⟨e, hj⟩, if_pos (by rw [e]; exact List.mem_cons_self)]
      · rw [if_neg (fun h => e h.1), if_neg (by simp [e, h])]

theorem mul1 (b : Byte) : mul 1 b = b := by
  unfold mul; simp [show Nat.testBit 1 0 = true from rfl, show Nat.testBit 1 1 = false from rfl, show Nat.testBit 1 2 = false from rfl]
theorem mul2 (b : Byte) : mul 2 b = xtime b := by
  unfold mul; simp [show Nat.testBit 2 0 = false from rfl, show Nat.testBit 2 1 = true from rfl, show Nat.testBit 2 2 = false from rfl]
theorem mul3 (b : Byte) : mul 3 b = b ^^^ xtime b := by
  unfold mul; simp [show Nat.testBit 3 0 = true from rfl, show Nat.testBit 3 1 = true from rfl, show Nat.testBit 3 2 = false from rfl]

def mixAll (w : List U64) : List U64 := forLoop 0 4 (fun w i => forLoop 0 2 (fun w j => mixCol w (i * 4 * 2 + j)) w) w

theorem loop8 {σ} (f : σ → Nat → σ) (w : σ) : forLoop 0 4 (fun w i => forLoop 0 2 (fun w j => f w (i * 4 * 2 + j)) w) w = [0, 1, 8, 9, 16, 17, 24, 25].foldl f w := rfl

theorem mixAll_eq (w : List U64) : mixAll w = [0, 1, 8, 9, 16, 17, 24, 25].foldl mixCol w := loop8 mixCol w

theorem fold4 (f : Nat → Byte) : (List.range 4).foldl (fun a k => a ^^^ f k) 0 = f 0 ^^^ f 1 ^^^ f 2 ^^^ f 3 := by
  show (((0 ^^^ _) ^^^ _) ^^^ _) ^^^ _ = _
  rw [show ∀ x : Byte, (0 : Byte) ^^^ x = x from fun x => BitVec.zero_xor]

theorem mix_eq (w : List U64) (hw : w.length = 32) : (mixAll w).length = 32 ∧ abs (mixAll w) = Spec.Echo.bigMixColumns (abs w) := by
  have H : ∀ j, j < 32 → (mixAll w).length = 32 ∧ (mixAll w).getD j 0 = mixVal w j := by
    intro j hj
    rw [mixAll_eq]
    obtain ⟨a, b⟩ := mixCols_get [0, 1, 8, 9, 16, 17, 24, 25] w hw (by decide) (by decide) j hj
    refine ⟨a, ?_⟩
    rw [b, if_pos]
    unfold cls
    have : ∀ j, j < 32 → 8 * (j / 8) + j % 2 ∈ [0, 1, 8, 9, 16, 17, 24, 25] := by decide
    exact this j hj
  have hl := (H 0 (by decide)).1
  refine ⟨hl, ?_⟩
  unfold Spec.Echo.bigMixColumns
  apply ext_at8 (by rw [abs_length, hl]; simp)
  intro n hn
  rw [abs_length, hl] at hn
  rw [at8_map_range _ _ _ hn, abs_at _ _ (by omega), (H _ (by omega)).2]
  rw [fold4 (fun k => mul (coef (n / 16 % 4) k) (at8 (abs w) (16 * (4 * (n / 64) + k) + n % 16)))]
  rw [abs_at _ _ (by omega), abs_at _ _ (by omega), abs_at _ _ (by omega), abs_at _ _ (by omega)]
  have hx : ∀ (x y : U64), (x ^^^ y).extractLsb' (8 * (n % 8)) 8 = x.extractLsb' (8 * (n % 8)) 8 ^^^ y.extractLsb' (8 * (n % 8)) 8 := fun x y => by
    rw [BitVec.extractLsb'_xor]
  have hm : ∀ k, k < 4 → (16 * (4 * (n / 64) + k) + n % 16) % 8 = n % 8 ∧ (16 * (4 * (n / 64) + k) + n % 16) / 8 = 8 * (n / 64) + 2 * k + n / 8 % 2 := by
    intro k hk; omega
  rw [(hm 0 (by decide)).1, (hm 0 (by decide)).2, (hm 1 (by decide)).1, (hm 1 (by decide)).2, (hm 2 (by decide)).1, (hm 2 (by decide)).2,
    (hm 3 (by decide)).1, (hm 3 (by decide)).2]
  unfold mixVal
  dsimp only
  rw [hx, hx, hx, hx, dbl_byte _ _ (by omega), dbl_byte _ _ (by omega)]
  rw [show 8 * (n / 8 / 8) = 8 * (n / 64) by omega]
  have hr : n / 16 % 4 = 0 ∨ n / 16 % 4 = 1 ∨ n / 16 % 4 = 2 ∨ n / 16 % 4 = 3 := by omega
  rcases hr with hr | hr | hr | hr
  · rw [show (n / 8 / 2 + 0) % 4 = 0 by omega, show (n / 8 / 2 + 1) % 4 = 1 by omega, show (n / 8 / 2 + 2) % 4 = 2 by omega, show (n / 8 / 2 + 3) % 4 = 3 by omega, hr]
    show _ = mul 2 _ ^^^ mul 3 _ ^^^ mul 1 _ ^^^ mul 1 _
    rw [mul1, mul1, mul2, mul3]; ac_rfl
  · rw [show (n / 8 / 2 + 0) % 4 = 1 by omega, show (n / 8 / 2 + 1) % 4 = 2 by omega, show (n / 8 / 2 + 2) % 4 = 3 by omega, show (n / 8 / 2 + 3) % 4 = 0 by omega, hr]
    show _ = mul 1 _ ^^^ mul 2 _ ^^^ mul 3 _ ^^^ mul 1 _
    rw [mul1, mul1, mul2, mul3]; ac_rfl
  · rw [show (n / 8 / 2 + 0) % 4 = 2 by omega, show (n / 8 / 2 + 1) % 4 = 3 by omega, show (n / 8 / 2 + 2) % 4 = 0 by omega, show (n / 8 / 2 + 3) % 4 = 1 by omega, hr]
    show _ = mul 1 _ ^^^ mul 1 _ ^^^ mul 2 _ ^^^ mul 3 _
    rw [mul1, mul1, mul2, mul3]; ac_rfl
  · rw [show (n / 8 / 2 + 0) % 4 = 3 by omega, show (n / 8 / 2 + 1) % 4 = 0 by omega, show (n / 8 / 2 + 2) % 4 = 1 by omega, show (n / 8 / 2 + 3) % 4 = 2 by omega, hr]
    show _ = mul 3 _ ^^^ mul 1 _ ^^^ mul 1 _ ^^^ mul 2 _
    rw [mul1, mul1, mul2, mul3]; ac_rfl

theorem round_unfold (s0 s1 : U64) (st : List U64 × U64) :
    round s0 s1 st = (mixAll (swaps.foldl swap (subLoop s0 s1 16 st).1), (subLoop s0 s1 16 st).2) := rfl

theorem round_eq (s0 s1 : U64) (w : List U64) (κ : U64) (hw : w.length = 32) :
    (round s0 s1 (w, κ)).1.length = 32 ∧ (round s0 s1 (w, κ)).2 = κ + 16 ∧
      abs (round s0 s1 (w, κ)).1 = Spec.Echo.bigRound (le64 s0 ++ le64 s1) κ (abs w) := by
  obtain ⟨i1, i2, -, -⟩ := subLoop_inv s0 s1 w κ hw 16 (Nat.le_refl _)
  have h3 := sub_eq s0 s1 w κ hw
  obtain ⟨h1, h2⟩ := shift_eq _ i2
  obtain ⟨g1, g2⟩ := mix_eq _ h1
  unfold Spec.Echo.bigRound
  rw [← h3, ← h2, ← g2]
  have hr := round_unfold s0 s1 (w, κ)
  generalize mixAll (swaps.foldl swap (subLoop s0 s1 16 (w, κ)).1) = u at g1 hr
  generalize (subLoop s0 s1 16 (w, κ)).2 = v at i1 hr
  generalize round s0 s1 (w, κ) = x at hr
  subst hr
  exact ⟨g1, i1, rfl⟩

theorem rounds_eq (s0 s1 : U64) (w : List U64) (κ : U64) (hw : w.length = 32) (n : Nat) :
    (forLoop 0 n (fun st _ => round s0 s1 st) (w, κ)).1.length = 32 ∧ (forLoop 0 n (fun st _ => round s0 s1 st) (w, κ)).2 = κ + BitVec.ofNat 64 (16 * n) ∧
      abs (forLoop 0 n (fun st _ => round s0 s1 st) (w, κ)).1 = Spec.Echo.rounds (le64 s0 ++ le64 s1) κ n (abs w) := by
  induction n with
  | zero => exact ⟨hw, (BitVec.add_zero κ).symm, rfl⟩
  | succ n ih =>
    rw [forLoop_succ _ _ _ _ (by omega)]
    generalize forLoop 0 n (fun st _ => round s0 s1 st) (w, κ) = st at ih
    obtain ⟨v, c⟩ := st
    obtain ⟨i1, i2, i3⟩ := ih
    dsimp only at i1 i2 i3
    obtain ⟨g1, g2, g3⟩ := round_eq s0 s1 v c i1
    refine ⟨g1, ?_, ?_⟩
    · rw [g2, i2]
      apply BitVec.eq_of_toNat_eq
      simp only [BitVec.toNat_add, BitVec.toNat_ofNat, show (16 : U64).toNat = 16 from rfl]
      simp only [Nat.reducePow]; omega
    · rw [g3, i3, i2]; rfl

end Verif.Echo
