import Verif.Model.GoSlice
/-
The memory after a copy, and slices of it.
-/
namespace Verif.GoSlice

theorem copy_get (m x : Bytes) (off i : Nat) (h : off + x.length ≤ m.length) :
    (goCopy m off x)[i]? = if i < off then m[i]? else if i < off + x.length then x[i - off]? else m[i]? := by
  unfold goCopy
  rw [List.take_of_length_le (l := x) (by omega), List.append_assoc]
  by_cases h1 : i < off
  · rw [if_pos h1, List.getElem?_append_left (by rw [List.length_take]; omega), List.getElem?_take_of_lt h1]
  · rw [if_neg h1, List.getElem?_append_right (by rw [List.length_take]; omega), List.length_take, Nat.min_eq_left (by omega)]
    by_cases h2 : i < off + x.length
    · rw [if_pos h2, List.getElem?_append_left (by omega)]
    · rw [if_neg h2, List.getElem?_append_right (by omega), List.getElem?_drop]
      congr 1; omega

theorem copy_length (m x : Bytes) (off : Nat) (h : off + x.length ≤ m.length) : (goCopy m off x).length = m.length := by
  rw [goCopy_length _ _ _ (by omega)]

theorem slice_get (s : Slice) (m : Bytes) (i : Nat) : (s.get m)[i]? = if i < s.len then m[s.off + i]? else none := by
  unfold Slice.get
  rw [List.getElem?_take]
  by_cases h : i < s.len
  · rw [if_pos h, if_pos h, List.getElem?_drop]
  · rw [if_neg h, if_neg h]

theorem slice_len (s : Slice) (m : Bytes) (h : s.off + s.len ≤ m.length) : (s.get m).length = s.len := by
  unfold Slice.get
  rw [List.length_take, List.length_drop]; omega

/-- Memory that agrees on the slice gives the same contents. -/
theorem slice_congr (s : Slice) (m m' : Bytes) (h : ∀ i, s.off ≤ i → i < s.off + s.len → m'[i]? = m[i]?) : s.get m' = s.get m := by
  apply List.ext_getElem?
  intro i
  rw [slice_get, slice_get]
  by_cases hi : i < s.len
  · rw [if_pos hi, if_pos hi, h _ (by omega) (by omega)]
  · rw [if_neg hi, if_neg hi]

/-- A slice that grows in place. -/
theorem grow_get (s : Slice) (m x : Bytes) (h : s.off + s.len + x.length ≤ m.length) :
    Slice.get { s with len := s.len + x.length } (goCopy m (s.off + s.len) x) = s.get m ++ x := by
  apply List.ext_getElem?
  intro i
  rw [slice_get]
  dsimp only
  rw [copy_get _ _ _ _ h]
  by_cases h1 : i < s.len
  · rw [if_pos (by omega), if_pos (by omega), List.getElem?_append_left (by rw [slice_len _ _ (by omega)]; exact h1), slice_get, if_pos h1]
  · rw [List.getElem?_append_right (by rw [slice_len _ _ (by omega)]; omega), slice_len _ _ (by omega)]
    by_cases h2 : i < s.len + x.length
    · rw [if_pos h2, if_neg (by omega), if_pos (by omega)]
      congr 1; omega
    · rw [if_neg h2, List.getElem?_eq_none (by omega)]

end Verif.GoSlice
