import Verif.SetLoop
/-
Little-endian 32-bit words and byte strings.
-/
namespace Verif

theorem flat32_length (s : List U32) : (s.flatMap le32).length = 4 * s.length := by
  induction s with
  | nil => rfl
  | cons a s ih => rw [List.flatMap_cons, List.length_append, ih, le32_length, List.length_cons]; omega

theorem getLE32_append_right (a b : Bytes) (k : Nat) : getLE32 (a ++ b) (a.length + k) = getLE32 b k := by
  unfold getLE32
  rw [at8_append_right _ _ _ (by omega), at8_append_right _ _ _ (by omega), at8_append_right _ _ _ (by omega), at8_append_right _ _ _ (by omega)]
  congr 2 <;> first | (congr 2 <;> first | (congr 1; omega) | omega | (congr 2; omega)) | (congr 1; omega)

theorem getLE32_append_left (a b : Bytes) (k : Nat) (h : k + 4 ≤ a.length) : getLE32 (a ++ b) k = getLE32 a k := by
  unfold getLE32
  rw [at8_append_left _ _ _ (by omega), at8_append_left _ _ _ (by omega), at8_append_left _ _ _ (by omega), at8_append_left _ _ _ (by omega)]

theorem getLE32_flat (s : List U32) (i : Nat) (h : i < s.length) : getLE32 (s.flatMap le32) (4 * i) = s.getD i 0 := by
  induction s generalizing i with
  | nil => simp at h
  | cons a s ih =>
    rw [List.flatMap_cons]
    cases i with
    | zero => exact getLE32_le32 a _
    | succ i =>
      rw [show 4 * (i + 1) = (le32 a).length + 4 * i by rw [le32_length]; omega, getLE32_append_right, ih i (by simpa using h)]
      simp

theorem getLE32_xor (a b : Bytes) (k : Nat) (h1 : k + 4 ≤ a.length) (h2 : k + 4 ≤ b.length) :
    getLE32 (List.zipWith (· ^^^ ·) a b) k = getLE32 a k ^^^ getLE32 b k := by
  unfold getLE32
  rw [at8_zipWith _ _ _ _ (by omega) (by omega), at8_zipWith _ _ _ _ (by omega) (by omega), at8_zipWith _ _ _ _ (by omega) (by omega), at8_zipWith _ _ _ _ (by omega) (by omega)]
  have h : ∀ {v w : Nat} (x x' : BitVec v) (y y' : BitVec w), (x ^^^ x') ++ (y ^^^ y') = (x ++ y) ^^^ (x' ++ y') := by
    intro v w x x' y y'
    apply BitVec.eq_of_getLsbD_eq
    intro i hi
    simp only [BitVec.getLsbD_append, BitVec.getLsbD_xor]
    by_cases h : i < w <;> simp [h]
  rw [h, h, h]

theorem getLE32_zeros (n k : Nat) : getLE32 (zeros n) k = 0 := by
  unfold getLE32
  rw [at8_zeros, at8_zeros, at8_zeros, at8_zeros]; rfl

theorem getLE32_extract (b : Bytes) (k i : Nat) (hi : i < 4) : (getLE32 b k).extractLsb' (8 * i) 8 = at8 b (k + i) := by
  unfold getLE32
  apply BitVec.eq_of_getLsbD_eq
  intro j hj
  simp only [BitVec.getLsbD_append, BitVec.getLsbD_extractLsb']
  obtain rfl | rfl | rfl | rfl : i = 0 ∨ i = 1 ∨ i = 2 ∨ i = 3 := by omega
  · simp [hj]
  · simp [hj, show ¬ 8 + j < 8 by omega]
  · simp [hj, show ¬ 16 + j < 8 by omega, show ¬ 16 + j - 8 < 8 by omega, show 16 + j - 8 - 8 = j by omega]
  · simp [hj, show ¬ 24 + j < 8 by omega, show ¬ 24 + j - 8 < 8 by omega, show ¬ 24 + j - 8 - 8 < 8 by omega, show 24 + j - 8 - 8 - 8 = j by omega]

theorem le32_getLE32_at (b : Bytes) (k : Nat) (h : k + 4 ≤ b.length) : le32 (getLE32 b k) = (b.drop k).take 4 := by
  unfold le32
  have x0 := getLE32_extract b k 0 (by omega)
  have x1 := getLE32_extract b k 1 (by omega)
  have x2 := getLE32_extract b k 2 (by omega)
  have x3 := getLE32_extract b k 3 (by omega)
  simp only [Nat.mul_zero, Nat.mul_one, Nat.reduceMul] at x0 x1 x2 x3
  rw [x0, x1, x2, x3]
  apply ext_at8
  · simp; omega
  · intro i hi
    have hi' : i < 4 := by simpa using hi
    unfold at8
    rw [List.getD_eq_getElem?_getD (l := List.take 4 _), List.getElem?_take_of_lt hi', List.getElem?_drop]
    obtain rfl | rfl | rfl | rfl : i = 0 ∨ i = 1 ∨ i = 2 ∨ i = 3 := by omega
    all_goals simp [List.getD_eq_getElem?_getD]

/-- `for i := 0; i < len(w); i++ { binary.LittleEndian.PutUint32(dst[i*4:], w[i]) }` -/
theorem put32Loop (w : List U32) : forLoop 0 w.length (fun dst i => goCopy dst (i * 4) (le32 (w.getD i 0))) (zeros (w.length * 4)) = w.flatMap le32 := by
  have := copyLoop 4 (fun i => le32 (w.getD i 0)) (fun _ => rfl) w.length (zeros (w.length * 4)) (by rw [zeros_length])
  rw [this]
  rw [List.flatMap_def]
  congr 1
  apply List.ext_getElem
  · simp
  · intro i h1 h2
    have : i < w.length := by simpa using h2
    simp [List.getD_eq_getElem?_getD, this]

/-- `for i := 0; i < n; i++ { x[i] = F(i, x[i]) }` on any list. -/
theorem setLoopG {α} (z : α) (F : Nat → α → α) (n : Nat) (x : List α) (hn : n ≤ x.length) :
    forLoop 0 n (fun (x : List α) i => x.set i (F i (x.getD i z))) x = (List.range x.length).map (fun i => if i < n then F i (x.getD i z) else x.getD i z) := by
  refine forLoop_inv (a := 0) (b := n) (s := x) (body := fun (x : List α) i => x.set i (F i (x.getD i z)))
    (fun k (y : List α) => y = (List.range x.length).map (fun i => if i < k then F i (x.getD i z) else x.getD i z)) (Nat.zero_le _) ?_ ?_
  · apply List.ext_getElem
    · simp
    · intro i h1 h2; simp [List.getD_eq_getElem?_getD, h1]
  · rintro k y - hk rfl
    apply List.ext_getElem
    · simp
    · intro i h1 h2
      have hi : i < x.length := by simpa using h2
      rw [List.getElem_set]
      have e : ((List.range x.length).map (fun i => if i < k then F i (x.getD i z) else x.getD i z)).getD k z = x.getD k z := by
        rw [List.getD_eq_getElem?_getD, List.getElem?_eq_getElem (by simp; omega)]
        simp
      simp only [e]
      simp only [List.getElem_map, List.getElem_range]
      by_cases h : k = i
      · subst h; rw [if_pos rfl, if_pos (by omega)]
      · rw [if_neg h]
        by_cases h' : i < k
        · rw [if_pos h', if_pos (by omega)]
        · rw [if_neg h', if_neg (by omega)]

end Verif
