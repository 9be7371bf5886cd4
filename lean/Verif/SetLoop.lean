import Verif.Bits
/-
Loops that assign to the elements of an array.
-/
namespace Verif

theorem ext_at8 {a b : Bytes} (hl : a.length = b.length) (h : ∀ i, i < a.length → at8 a i = at8 b i) : a = b := by
  apply List.ext_getElem hl
  intro i h1 h2
  have := h i h1
  unfold at8 at this
  rw [List.getD_eq_getElem?_getD, List.getD_eq_getElem?_getD, List.getElem?_eq_getElem h1, List.getElem?_eq_getElem h2] at this
  exact this

theorem at8_set (l : Bytes) (i j : Nat) (a : Byte) : at8 (l.set i a) j = if i = j ∧ j < l.length then a else at8 l j := by
  unfold at8
  rw [List.getD_eq_getElem?_getD, List.getD_eq_getElem?_getD, List.getElem?_set]
  by_cases h : i = j
  · subst h
    by_cases h2 : i < l.length
    · simp [h2]
    · simp [h2]
  · simp [h]

theorem at8_map_range (f : Nat → Byte) (n i : Nat) (h : i < n) : at8 ((List.range n).map f) i = f i := by
  unfold at8
  rw [List.getD_eq_getElem?_getD, List.getElem?_map, List.getElem?_range h]
  rfl

theorem at8_map (f : Byte → Byte) (l : Bytes) (i : Nat) (h : i < l.length) : at8 (l.map f) i = f (at8 l i) := by
  unfold at8
  rw [List.getD_eq_getElem?_getD, List.getD_eq_getElem?_getD, List.getElem?_map, List.getElem?_eq_getElem h]
  rfl

theorem at8_zipWith (f : Byte → Byte → Byte) (a b : Bytes) (i : Nat) (h1 : i < a.length) (h2 : i < b.length) :
    at8 (List.zipWith f a b) i = f (at8 a i) (at8 b i) := by
  unfold at8
  rw [List.getD_eq_getElem?_getD, List.getD_eq_getElem?_getD, List.getD_eq_getElem?_getD, List.getElem?_zipWith,
    List.getElem?_eq_getElem h1, List.getElem?_eq_getElem h2]
  rfl

theorem at8_append_left (a b : Bytes) (i : Nat) (h : i < a.length) : at8 (a ++ b) i = at8 a i := by
  unfold at8
  rw [List.getD_eq_getElem?_getD, List.getD_eq_getElem?_getD, List.getElem?_append_left h]
theorem at8_append_right (a b : Bytes) (i : Nat) (h : a.length ≤ i) : at8 (a ++ b) i = at8 b (i - a.length) := by
  unfold at8
  rw [List.getD_eq_getElem?_getD, List.getD_eq_getElem?_getD, List.getElem?_append_right h]
theorem at8_zeros (n i : Nat) : at8 (zeros n) i = 0 := by
  unfold at8 zeros
  rw [List.getD_eq_getElem?_getD, List.getElem?_replicate]
  split <;> rfl

/-- `for i := 0; i < n; i++ { d[i] = F(i, d[i]) }` -/
theorem setLoop (F : Nat → Byte → Byte) (n : Nat) (d : Bytes) (hn : n ≤ d.length) :
    (forLoop 0 n (fun (d : Bytes) i => d.set i (F i (at8 d i))) d).length = d.length ∧
    ∀ j, j < d.length → at8 (forLoop 0 n (fun (d : Bytes) i => d.set i (F i (at8 d i))) d) j = if j < n then F j (at8 d j) else at8 d j := by
  refine forLoop_inv (a := 0) (b := n) (fun k (e : Bytes) => e.length = d.length ∧ ∀ j, j < d.length → at8 e j = if j < k then F j (at8 d j) else at8 d j)
    (Nat.zero_le _) ⟨rfl, fun j _ => by rw [if_neg (by omega)]⟩ ?_
  rintro k e _ hk ⟨h1, h2⟩
  refine ⟨by rw [List.length_set, h1], fun j hj => ?_⟩
  rw [at8_set]
  by_cases hc : k = j
  · subst hc
    rw [if_pos ⟨rfl, by omega⟩, h2 k hj, if_neg (by omega), if_pos (by omega)]
  · rw [if_neg (fun h => hc h.1), h2 j hj]
    by_cases hjk : j < k
    · rw [if_pos hjk, if_pos (by omega)]
    · rw [if_neg hjk, if_neg (by omega)]

/-- `for i := 0; i < n; i++ { d[t(i)] = v(i) }` for different `t(i)`. -/
theorem permLoop (t : Nat → Nat) (v : Nat → Byte) (n : Nat) (d : Bytes) (ht : ∀ i, i < n → t i < d.length)
    (hi : ∀ i j, i < n → j < n → t i = t j → i = j) :
    (forLoop 0 n (fun (d : Bytes) i => d.set (t i) (v i)) d).length = d.length ∧
    ∀ j, j < n → at8 (forLoop 0 n (fun (d : Bytes) i => d.set (t i) (v i)) d) (t j) = v j := by
  have := forLoop_inv (a := 0) (b := n) (s := d) (body := fun (d : Bytes) i => d.set (t i) (v i))
    (fun k (e : Bytes) => e.length = d.length ∧ ∀ j, j < k → at8 e (t j) = v j) (Nat.zero_le _) ⟨rfl, fun j h => by omega⟩ ?_
  · exact this
  rintro k e _ hk ⟨h1, h2⟩
  refine ⟨by rw [List.length_set, h1], fun j hj => ?_⟩
  rw [at8_set]
  by_cases hc : k = j
  · subst hc
    rw [if_pos ⟨rfl, by rw [h1]; exact ht k hk⟩]
  · rw [if_neg (fun h => hc (hi k j hk (by omega) h.1)), h2 j (by omega)]

/-- `for i := 0; i < n; i++ { put(d[k*i:], w(i)) }` filling the array. -/
theorem copyLoop (k : Nat) (w : Nat → Bytes) (hw : ∀ i, (w i).length = k) (n : Nat) (d : Bytes) (hd : d.length = n * k) :
    forLoop 0 n (fun (d : Bytes) i => goCopy d (i * k) (w i)) d = ((List.range n).map w).flatten := by
  have hfl : ∀ j, ((List.range j).map w).flatten.length = j * k := by
    intro j
    induction j with
    | zero => simp
    | succ j ih => rw [List.range_succ, List.map_append, List.flatten_append, List.length_append, ih]; simp [hw, Nat.succ_mul]
  have := forLoop_inv (a := 0) (b := n) (s := d) (body := fun (d : Bytes) i => goCopy d (i * k) (w i))
    (fun j (e : Bytes) => e = ((List.range j).map w).flatten ++ d.drop (j * k)) (Nat.zero_le _) (by simp) ?_
  · rw [this, List.drop_eq_nil_of_le (by omega), List.append_nil]
  rintro j e _ hj rfl
  have hle : (j + 1) * k ≤ n * k := Nat.mul_le_mul_right k hj
  rw [Nat.succ_mul] at hle
  unfold goCopy
  rw [List.take_left' (hfl j), List.take_of_length_le (by rw [List.length_append, hfl, List.length_drop, hw]; omega), hw,
    List.range_succ, List.map_append, List.flatten_append, List.drop_append, List.drop_eq_nil_of_le (by rw [hfl]; omega), List.nil_append,
    hfl, List.drop_drop]
  rw [show j * k + (j * k + k - j * k) = (j + 1) * k by rw [Nat.succ_mul]; omega]
  simp

end Verif
