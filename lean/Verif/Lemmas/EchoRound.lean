import Verif.Lemmas.Echo
/-
Package echo: the round function.
-/
namespace Verif.Echo
open Spec.AES (coef)
open Spec.Groestl (sbox mul xtime)
open LSH (getD_set' getD_map_range ext_getD)

/-- The words as bytes. -/
abbrev abs (w : List U64) : Bytes := w.flatMap le64

theorem abs_length (w : List U64) : (abs w).length = 8 * w.length := by
  induction w with
  | nil => rfl
  | cons a t ih =>
    show (le64 a ++ abs t).length = _
    rw [List.length_append, ih, le64_length, List.length_cons]; omega

theorem abs_at (w : List U64) (n : Nat) (h : n < 8 * w.length) : at8 (abs w) n = (w.getD (n / 8) 0).extractLsb' (8 * (n % 8)) 8 := by
  induction w generalizing n with
  | nil => simp at h
  | cons a t ih =>
    show at8 (le64 a ++ abs t) n = _
    by_cases hn : n < 8
    · rw [at8_append_left _ _ _ (by rw [le64_length]; exact hn), show n / 8 = 0 by omega, show n % 8 = n by omega, le64_get hn]; rfl
    · rw [show n = 8 + (n - 8) by omega, show at8 (le64 a ++ abs t) (8 + (n - 8)) = at8 (abs t) (n - 8) from by
          rw [at8_append_right _ _ _ (by rw [le64_length]; omega), le64_length]; congr 1; omega]
      rw [ih _ (by simp at h; omega), show (8 + (n - 8)) / 8 = (n - 8) / 8 + 1 by omega, show (8 + (n - 8)) % 8 = (n - 8) % 8 by omega]
      rfl

theorem abs_word (w : List U64) (hw : w.length = 32) (i : Nat) (hi : i < 16) : Spec.Echo.word (abs w) i = le64 (w.getD (2 * i) 0) ++ le64 (w.getD (2 * i + 1) 0) := by
  unfold Spec.Echo.word
  have h : ∀ (l : List U64) (k : Nat), k + 1 < l.length → ((abs l).drop (8 * k)).take 16 = le64 (l.getD k 0) ++ le64 (l.getD (k + 1) 0) := by
    intro l
    induction l with
    | nil => intro k hk; simp at hk
    | cons a t ih =>
      intro k hk
      cases k with
      | zero =>
        cases t with
        | nil => simp at hk
        | cons b t => rfl
      | succ k =>
        show ((le64 a ++ abs t).drop (8 * (k + 1))).take 16 = _
        rw [show 8 * (k + 1) = (le64 a).length + 8 * k by rw [le64_length]; omega, List.drop_append, Nat.add_sub_cancel_left,
          List.drop_of_length_le (by omega), List.nil_append, ih k (by simp at hk; omega)]
        rfl
  rw [show 16 * i = 8 * (2 * i) by omega]
  exact h w (2 * i) (by omega)

/-- The loop of BIG.SubWords. -/
def subLoop (s0 s1 : U64) (n : Nat) (st : List U64 × U64) : List U64 × U64 :=
  forLoop 0 n (fun (st : List U64 × U64) r =>
    let c := subWord st.2 s0 s1 (st.1.getD (r * 2) 0) (st.1.getD (r * 2 + 1) 0)
    ((st.1.set (r * 2) c.1).set (r * 2 + 1) c.2, st.2 + 1)) st

theorem subLoop_inv (s0 s1 : U64) (w : List U64) (κ : U64) (hw : w.length = 32) (n : Nat) (hn : n ≤ 16) :
    (subLoop s0 s1 n (w, κ)).2 = κ + BitVec.ofNat 64 n ∧ (subLoop s0 s1 n (w, κ)).1.length = 32 ∧
    (∀ r, r < n → (subLoop s0 s1 n (w, κ)).1.getD (2 * r) 0 = (subWord (κ + BitVec.ofNat 64 r) s0 s1 (w.getD (2 * r) 0) (w.getD (2 * r + 1) 0)).1 ∧
      (subLoop s0 s1 n (w, κ)).1.getD (2 * r + 1) 0 = (subWord (κ + BitVec.ofNat 64 r) s0 s1 (w.getD (2 * r) 0) (w.getD (2 * r + 1) 0)).2) ∧
    (∀ j, 2 * n ≤ j → (subLoop s0 s1 n (w, κ)).1.getD j 0 = w.getD j 0) := by
  induction n with
  | zero => exact ⟨(BitVec.add_zero κ).symm, hw, fun r h => absurd h (by omega), fun _ _ => rfl⟩
  | succ n ih =>
    obtain ⟨i1, i2, i3, i4⟩ := ih (by omega)
    have e : subLoop s0 s1 (n + 1) (w, κ) = (fun (st : List U64 × U64) r =>
      let c := subWord st.2 s0 s1 (st.1.getD (r * 2) 0) (st.1.getD (r * 2 + 1) 0)
      ((st.1.set (r * 2) c.1).set (r * 2 + 1) c.2, st.2 + 1)) (subLoop s0 s1 n (w, κ)) n := by
      unfold subLoop; rw [forLoop_succ _ _ _ _ (by omega)]
    rw [e]
    generalize subLoop s0 s1 n (w, κ) = st at i1 i2 i3 i4
    dsimp only
    rw [i4 (n * 2) (by omega), i4 (n * 2 + 1) (by omega), i1]
    refine ⟨?_, by simp [i2], ?_, ?_⟩
    · apply BitVec.eq_of_toNat_eq
      simp [BitVec.toNat_add, BitVec.toNat_ofNat]; omega
    · intro r hr
      rw [getD_set' , getD_set', getD_set', getD_set']
      simp only [List.length_set, i2]
      by_cases h : r = n
      · subst h
        rw [show r * 2 = 2 * r by omega]
        simp [show 2 * r + 1 < 32 by omega, show 2 * r < 32 by omega]
      · have := i3 r (by omega)
        rw [if_neg (by omega), if_neg (by omega), if_neg (by omega), if_neg (by omega)]
        exact this
    · intro j hj
      rw [getD_set', getD_set', if_neg (by omega), if_neg (by omega), i4 j (by omega)]

theorem sub_eq (s0 s1 : U64) (w : List U64) (κ : U64) (hw : w.length = 32) :
    abs (subLoop s0 s1 16 (w, κ)).1 = Spec.Echo.subWords κ (le64 s0 ++ le64 s1) (abs w) := by
  obtain ⟨-, i2, i3, -⟩ := subLoop_inv s0 s1 w κ hw 16 (Nat.le_refl _)
  have hl : ∀ i, (Spec.Echo.aes (Spec.Echo.aes (Spec.Echo.word (abs w) i) (le64 (κ + BitVec.ofNat 64 i) ++ zeros 8)) (le64 s0 ++ le64 s1)).length = 16 := by
    intro i; simp [Spec.Echo.aes, Spec.Echo.xorBytes, mix_length]
  have hb : ∀ b ∈ (List.range 16).map (fun i => Spec.Echo.aes (Spec.Echo.aes (Spec.Echo.word (abs w) i) (le64 (κ + BitVec.ofNat 64 i) ++ zeros 8)) (le64 s0 ++ le64 s1)), b.length = 16 := by
    intro b hb
    obtain ⟨i, -, rfl⟩ := List.mem_map.1 hb
    exact hl i
  unfold Spec.Echo.subWords
  rw [List.flatMap_def]
  apply ext_at8
  · rw [abs_length, i2, List.length_flatten, List.map_map, Function.comp_def, List.map_congr_left (g := fun _ => 16) (fun i _ => hl i)]
    rfl
  intro n hn
  rw [abs_length, i2] at hn
  rw [abs_at _ _ (by rw [i2]; exact hn), LSH.flatten_at 16 _ hb (by decide) n (by simp; omega), getD_map_range _ _ _ _ (by omega),
    abs_word w hw _ (by omega), ← subWord_eq]
  obtain ⟨e1, e2⟩ := i3 (n / 16) (by omega)
  by_cases h : n % 16 < 8
  · rw [at8_append_left _ _ _ (by rw [le64_length]; exact h), le64_get h, ← e1, show n / 8 = 2 * (n / 16) by omega, show n % 8 = n % 16 by omega]
  · rw [at8_append_right _ _ _ (by rw [le64_length]; omega), le64_length, le64_get (by omega), ← e2, show n / 8 = 2 * (n / 16) + 1 by omega,
      show n % 8 = n % 16 - 8 by omega]

/-- Where an entry comes from after a swap. -/
def sig (p : Nat × Nat) (j : Nat) : Nat := if j = p.2 then p.1 else if j = p.1 then p.2 else j

theorem swap_get (w : List U64) (p : Nat × Nat) (j : Nat) (h1 : p.1 < w.length) (h2 : p.2 < w.length) : (swap w p).getD j 0 = w.getD (sig p j) 0 := by
  unfold swap sig
  rw [getD_set', getD_set', List.length_set]
  by_cases a : j = p.2
  · rw [if_pos ⟨a.symm, by omega⟩, if_pos a]
  · rw [if_neg (by omega), if_neg a]
    by_cases b : j = p.1
    · rw [if_pos ⟨b.symm, by omega⟩, if_pos b]
    · rw [if_neg (by omega), if_neg b]

theorem swap_length (w : List U64) (p : Nat × Nat) : (swap w p).length = w.length := by simp [swap]

theorem swaps_get (ps : List (Nat × Nat)) : ∀ (w : List U64) (j : Nat), (∀ p ∈ ps, p.1 < w.length ∧ p.2 < w.length) →
    (ps.foldl swap w).length = w.length ∧ (ps.foldl swap w).getD j 0 = w.getD (ps.foldr sig j) 0 := by
  induction ps with
  | nil => exact fun _ _ _ => ⟨rfl, rfl⟩
  | cons p ps ih =>
    intro w j h
    obtain ⟨a, b⟩ := ih (swap w p) j (fun q hq => by rw [swap_length]; exact h q (List.mem_cons_of_mem _ hq))
    obtain ⟨h1, h2⟩ := h p List.mem_cons_self
    rw [List.foldl_cons, List.foldr_cons, a, b, swap_length, swap_get _ _ _ h1 h2]
    exact ⟨rfl, rfl⟩

theorem swaps_perm : ∀ j, j < 32 → swaps.foldr sig j = 2 * (4 * ((j / 8 + j / 2 % 4) % 4) + j / 2 % 4) + j % 2 := by decide

theorem shift_eq (w : List U64) (hw : w.length = 32) : (swaps.foldl swap w).length = 32 ∧ abs (swaps.foldl swap w) = Spec.Echo.bigShiftRows (abs w) := by
  have hb : ∀ p ∈ swaps, p.1 < w.length ∧ p.2 < w.length := by rw [hw]; decide
  have hl := (swaps_get swaps w 0 hb).1.trans hw
  refine ⟨hl, ?_⟩
  unfold Spec.Echo.bigShiftRows
  apply ext_at8 (by rw [abs_length, hl]; simp)
  intro n hn
  rw [abs_length, hl] at hn
  rw [at8_map_range _ _ _ hn, abs_at _ _ (by omega), abs_at _ _ (by omega), (swaps_get swaps w _ hb).2, swaps_perm _ (by omega)]
  have e1 : (16 * (4 * ((n / 64 + n / 16 % 4) % 4) + n / 16 % 4) + n % 16) / 8 = 2 * (4 * ((n / 8 / 8 + n / 8 / 2 % 4) % 4) + n / 8 / 2 % 4) + n / 8 % 2 := by omega
  have e2 : (16 * (4 * ((n / 64 + n / 16 % 4) % 4) + n / 16 % 4) + n % 16) % 8 = n % 8 := by omega
  rw [e1, e2]

theorem last_bit (i : Nat) : (0x0101010101010101#64).getLsbD i = decide (i < 64 ∧ i % 8 = 0) := by
  by_cases h : i < 64
  · revert i; decide
  · rw [BitVec.getLsbD_of_ge _ _ (by omega)]; simp [h]
theorem first_bit (i : Nat) : (0xfefefefefefefefe#64).getLsbD i = decide (i < 64 ∧ i % 8 ≠ 0) := by
  by_cases h : i < 64
  · revert i; decide
  · rw [BitVec.getLsbD_of_ge _ _ (by omega)]; simp [h]

theorem xtime_bit : ∀ (b : Byte) (j : Nat), j < 8 → (xtime b).getLsbD j = ((decide (j ≠ 0) && b.getLsbD (j - 1)) ^^ (b.getLsbD 7 && decide (j = 0 ∨ j = 1 ∨ j = 3 ∨ j = 4))) := by
  intro b j hj
  unfold xtime
  rw [BitVec.getLsbD_xor, BitVec.getLsbD_shiftLeft, BitVec.msb_eq_getLsbD_last]
  have h : ∀ j, j < 8 → (0x1b#8).getLsbD j = decide (j = 0 ∨ j = 1 ∨ j = 3 ∨ j = 4) := by decide
  congr 1
  · by_cases e : j = 0 <;> simp [e, hj]
  · show (if b.getLsbD 7 = true then 0x1b#8 else 0#8).getLsbD j = _
    by_cases e : b.getLsbD 7 = true
    · rw [if_pos e, e, h j hj]; rfl
    · rw [if_neg e, Bool.eq_false_iff.2 e]; simp

theorem mul27 (y : U64) : y * 0x1b#64 = y + (y <<< 1) + (y <<< 3) + (y <<< 4) := by
  apply BitVec.eq_of_toNat_eq
  simp only [BitVec.toNat_mul, BitVec.toNat_add, BitVec.toNat_shiftLeft, Nat.shiftLeft_eq, BitVec.toNat_ofNat]
  omega

theorem disj (y : U64) (hy : ∀ i, y.getLsbD i = true → i % 8 = 0) : y * 0x1b#64 = y ||| (y <<< 1) ||| (y <<< 3) ||| (y <<< 4) := by
  have key : ∀ a b : U64, (∀ i, a.getLsbD i = true → b.getLsbD i = true → False) → a + b = a ||| b := by
    intro a b h
    apply BitVec.add_eq_or_of_and_eq_zero
    apply BitVec.eq_of_getLsbD_eq
    intro i hi
    rw [BitVec.getLsbD_and, BitVec.getLsbD_zero]
    cases ha : a.getLsbD i <;> cases hb : b.getLsbD i <;> simp
    exact h i ha hb
  have sh : ∀ k i, (y <<< k).getLsbD i = true → (i + 64 - k) % 8 = 0 ∧ k ≤ i ∧ i < 64 := by
    intro k i h
    rw [BitVec.getLsbD_shiftLeft] at h
    simp at h
    obtain ⟨⟨a, b⟩, c⟩ := h
    have := hy _ c
    omega
  have k1 : y + (y <<< 1) = y ||| (y <<< 1) := key _ _ (fun i h1 h2 => by
    have := sh 1 i h2
    have := hy _ h1; omega)
  have k2 : (y ||| (y <<< 1)) + (y <<< 3) = y ||| (y <<< 1) ||| (y <<< 3) := key _ _ (fun i h1 h2 => by
    have := sh 3 i h2
    simp only [BitVec.getLsbD_or, Bool.or_eq_true] at h1
    rcases h1 with h | h
    · have := hy _ h; omega
    · have := sh 1 i h; omega)
  have k3 : (y ||| (y <<< 1) ||| (y <<< 3)) + (y <<< 4) = y ||| (y <<< 1) ||| (y <<< 3) ||| (y <<< 4) := key _ _ (fun i h1 h2 => by
    have := sh 4 i h2
    simp only [BitVec.getLsbD_or, Bool.or_eq_true] at h1
    rcases h1 with (h | h) | h
    · have := hy _ h; omega
    · have := sh 1 i h; omega
    · have := sh 3 i h; omega)
  rw [mul27, k1, k2, k3]

/-- Doubling all bytes of a word at once. -/
theorem dbl_byte (a : U64) (k : Nat) (hk : k < 8) : (dbl a).extractLsb' (8 * k) 8 = xtime (a.extractLsb' (8 * k) 8) := by
  apply BitVec.eq_of_getLsbD_eq
  intro j hj
  rw [xtime_bit _ _ hj]
  unfold dbl
  have hy : ∀ i, ((a >>> 7) &&& 0x0101010101010101#64).getLsbD i = (decide (i < 64 ∧ i % 8 = 0) && a.getLsbD (7 + i)) := by
    intro i
    rw [BitVec.getLsbD_and, last_bit, BitVec.getLsbD_ushiftRight, Bool.and_comm]
  rw [disj _ (fun i h => by rw [hy] at h; simp at h; omega)]
  generalize hyy : (a >>> 7) &&& 0x0101010101010101#64 = y at hy
  have hs : ∀ d, d < 8 → (y <<< d).getLsbD (8 * k + j) = (decide (j = d) && a.getLsbD (8 * k + 7)) := by
    intro d hd
    rw [BitVec.getLsbD_shiftLeft, hy]
    by_cases e : j = d
    · subst e
      rw [Nat.add_sub_cancel, Nat.add_comm 7]
      simp [show 8 * k + j < 64 by omega, show 8 * k < 64 by omega]
    · by_cases e2 : 8 * k + j < d
      · simp [e2, e]
      · simp [e, show (8 * k + j - d) % 8 ≠ 0 by omega]
  have h0 : y.getLsbD (8 * k + j) = (decide (j = 0) && a.getLsbD (8 * k + 7)) := by
    have := hs 0 (by decide)
    rwa [BitVec.shiftLeft_zero] at this
  simp only [BitVec.getLsbD_extractLsb', hj, decide_true, Bool.true_and, BitVec.getLsbD_xor, BitVec.getLsbD_and, BitVec.getLsbD_or, first_bit,
    h0, hs 1 (by decide), hs 3 (by decide), hs 4 (by decide)]
  rw [BitVec.getLsbD_shiftLeft]
  congr 1
  · by_cases e : j = 0
    · subst e; simp
    · simp [e, show (8 * k + j) % 8 ≠ 0 by omega, show 8 * k + j < 64 by omega, show ¬ (8 * k + j < 1) by omega, show j - 1 < 8 by omega,
        show 8 * k + (j - 1) = 8 * k + j - 1 by omega]
      omega
  · cases a.getLsbD (8 * k + 7) <;> simp [Bool.or_assoc]

end Verif.Echo
