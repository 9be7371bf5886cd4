import Verif.Words32
/-
Lists given by a function on their indices.
-/
namespace Verif

def FL {α} (n : Nat) (f : Nat → α) : List α := (List.range n).map f

theorem FL_length {α} (n : Nat) (f : Nat → α) : (FL n f).length = n := by simp [FL]
theorem FL_getD {α} (n : Nat) (f : Nat → α) (z : α) (i : Nat) (h : i < n) : (FL n f).getD i z = f i := by
  rw [List.getD_eq_getElem?_getD, List.getElem?_eq_getElem (by simpa [FL] using h)]; simp [FL]
theorem FL_ext {α} {n : Nat} {f g : Nat → α} (h : ∀ i, i < n → f i = g i) : FL n f = FL n g := by
  unfold FL; apply List.map_congr_left; intro i hi; exact h i (List.mem_range.mp hi)
theorem FL_set {α} (n : Nat) (f : Nat → α) (i : Nat) (v : α) : (FL n f).set i v = FL n (fun k => if k = i then v else f k) := by
  apply List.ext_getElem
  · simp [FL]
  · intro k h1 h2
    rw [List.getElem_set]
    simp only [FL, List.getElem_map, List.getElem_range]
    by_cases e : i = k
    · rw [if_pos e, if_pos e.symm]
    · rw [if_neg e, if_neg (fun e' => e e'.symm)]
theorem eq_FL {α} (n : Nat) (z : α) (x : List α) (h : x.length = n) : x = FL n (fun i => x.getD i z) := by
  apply List.ext_getElem
  · simp [FL, h]
  · intro k h1 h2
    simp [FL, List.getD_eq_getElem?_getD, h1]
theorem FL_map {α β} (n : Nat) (f : Nat → α) (g : α → β) : (FL n f).map g = FL n (fun i => g (f i)) := by
  simp [FL]
theorem FL_zipWith {α β γ} (n : Nat) (f : Nat → α) (g : Nat → β) (h : α → β → γ) : List.zipWith h (FL n f) (FL n g) = FL n (fun i => h (f i) (g i)) := by
  apply List.ext_getElem
  · simp [FL]
  · intro k h1 h2; simp [FL]
theorem FL_inj {α} {n : Nat} {f g : Nat → α} (h : FL n f = FL n g) (i : Nat) (hi : i < n) : f i = g i := by
  have e : (FL n f)[i]? = (FL n g)[i]? := by rw [h]
  simpa [FL, hi] using e

end Verif
