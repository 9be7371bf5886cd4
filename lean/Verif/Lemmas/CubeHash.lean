import Mathlib.Tactic.IntervalCases
import Verif.Model.CubeHash
import Verif.Spec.CubeHash
/-
CubeHash: the round function.
-/
namespace Verif.CubeHash

def L (f : Nat → U32) : List U32 := (List.range 32).map f

theorem L_length (f : Nat → U32) : (L f).length = 32 := by simp [L]
theorem L_getD (f : Nat → U32) (i : Nat) (h : i < 32) : (L f).getD i 0 = f i := by
  rw [List.getD_eq_getElem?_getD, List.getElem?_eq_getElem (by simpa [L] using h)]; simp [L]
theorem L_ext {f g : Nat → U32} (h : ∀ n, n < 32 → f n = g n) : L f = L g := by
  unfold L; apply List.map_congr_left; intro n hn; exact h n (List.mem_range.mp hn)
theorem L_set (f : Nat → U32) (i : Nat) (v : U32) (_h : i < 32) : (L f).set i v = L (fun n => if n = i then v else f n) := by
  apply List.ext_getElem
  · simp [L]
  · intro n h1 h2
    rw [List.getElem_set]
    simp only [L, List.getElem_map, List.getElem_range]
    by_cases e : i = n
    · rw [if_pos e, if_pos e.symm]
    · rw [if_neg e, if_neg (fun e' => e e'.symm)]
theorem eq_L (x : List U32) (h : x.length = 32) : x = L (fun i => x.getD i 0) := by
  apply List.ext_getElem
  · simp [L, h]
  · intro n h1 h2
    simp [L, List.getD_eq_getElem?_getD, h1]

theorem swap_L (f : Nat → U32) (i j : Nat) (hi : i < 32) (hj : j < 32) :
    swap (L f) (i, j) = L (fun n => if n = j then f i else if n = i then f j else f n) := by
  unfold swap
  dsimp only
  rw [L_getD _ _ hi, L_getD _ _ hj, L_set _ _ _ hi, L_set _ _ _ hj]

theorem addRot_L (k : Nat) (f : Nat → U32) : addRot k (L f) = L (fun n => if n < 16 then (f n).rotateLeft k else f n + f (n - 16)) := by
  have := forLoop_inv (a := 0) (b := 16) (s := L f) (body := fun (x : List U32) n =>
      let x := x.set (n + 16) (x.getD (n + 16) 0 + x.getD n 0)
      x.set n ((x.getD n 0).rotateLeft k))
    (fun c (x : List U32) => x = L (fun n => if n < 16 then (if n < c then (f n).rotateLeft k else f n) else if n - 16 < c then f n + f (n - 16) else f n))
    (by omega) (L_ext (by intro n _; simp)) (by
      rintro c x - hc rfl
      dsimp only
      rw [L_getD _ _ (by omega), L_getD _ _ (by omega), L_set _ _ _ (by omega), L_getD _ _ (by omega), L_set _ _ _ (by omega)]
      apply L_ext
      intro n hn
      rw [if_neg (show ¬ c + 16 < 16 by omega), if_neg (show ¬ c + 16 - 16 < c by omega), if_pos (show c < 16 from hc), if_neg (show ¬ c < c by omega),
        if_neg (show ¬ c = c + 16 by omega)]
      by_cases e : n = c
      · subst e; rw [if_pos rfl, if_pos hc, if_pos (by omega)]
      · rw [if_neg e]
        by_cases e2 : n = c + 16
        · subst e2; rw [if_pos rfl, if_neg (by omega), if_pos (by omega), Nat.add_sub_cancel]
        · rw [if_neg e2]
          by_cases h1 : n < 16
          · rw [if_pos h1, if_pos h1]
            by_cases h2 : n < c
            · rw [if_pos h2, if_pos (by omega)]
            · rw [if_neg h2, if_neg (by omega)]
          · rw [if_neg h1, if_neg h1]
            by_cases h2 : n - 16 < c
            · rw [if_pos h2, if_pos (by omega)]
            · rw [if_neg h2, if_neg (by omega)])
  unfold addRot
  rw [this]
  apply L_ext
  intro n hn
  by_cases h1 : n < 16
  · rw [if_pos h1, if_pos h1, if_pos h1]
  · rw [if_neg h1, if_neg h1, if_pos (by omega)]

theorem xorHalf_L (f : Nat → U32) : xorHalf (L f) = L (fun n => if n < 16 then f n ^^^ f (n + 16) else f n) := by
  have := forLoop_inv (a := 0) (b := 16) (s := L f) (body := fun (x : List U32) n => x.set n (x.getD n 0 ^^^ x.getD (n + 16) 0))
    (fun c (x : List U32) => x = L (fun n => if n < c then f n ^^^ f (n + 16) else f n))
    (by omega) (L_ext (by intro n _; simp)) (by
      rintro c x - hc rfl
      rw [L_getD _ _ (by omega), L_getD _ _ (by omega), L_set _ _ _ (by omega)]
      apply L_ext
      intro n hn
      rw [if_neg (show ¬ c < c by omega), if_neg (show ¬ c + 16 < c by omega)]
      by_cases e : n = c
      · subst e; rw [if_pos rfl, if_pos (by omega)]
      · rw [if_neg e]
        by_cases h2 : n < c
        · rw [if_pos h2, if_pos (by omega)]
        · rw [if_neg h2, if_neg (by omega)])
  exact this

theorem sw8 (f : Nat → U32) : [(0, 8), (1, 9), (2, 10), (3, 11), (4, 12), (5, 13), (6, 14), (7, 15)].foldl swap (L f) = L (fun n => if n < 16 then f (n ^^^ 8) else f n) := by
  simp only [List.foldl_cons, List.foldl_nil]
  rw [swap_L, swap_L, swap_L, swap_L, swap_L, swap_L, swap_L, swap_L] <;> first | omega | skip
  apply L_ext; intro n hn; interval_cases n <;> rfl
theorem sw2 (f : Nat → U32) : [(16, 18), (17, 19), (20, 22), (21, 23), (24, 26), (25, 27), (28, 30), (29, 31)].foldl swap (L f) = L (fun n => if n < 16 then f n else f (n ^^^ 2)) := by
  simp only [List.foldl_cons, List.foldl_nil]
  rw [swap_L, swap_L, swap_L, swap_L, swap_L, swap_L, swap_L, swap_L] <;> first | omega | skip
  apply L_ext; intro n hn; interval_cases n <;> rfl
theorem sw4 (f : Nat → U32) : [(0, 4), (1, 5), (2, 6), (3, 7), (8, 12), (9, 13), (10, 14), (11, 15)].foldl swap (L f) = L (fun n => if n < 16 then f (n ^^^ 4) else f n) := by
  simp only [List.foldl_cons, List.foldl_nil]
  rw [swap_L, swap_L, swap_L, swap_L, swap_L, swap_L, swap_L, swap_L] <;> first | omega | skip
  apply L_ext; intro n hn; interval_cases n <;> rfl
theorem sw1 (f : Nat → U32) : [(16, 17), (18, 19), (20, 21), (22, 23), (24, 25), (26, 27), (28, 29), (30, 31)].foldl swap (L f) = L (fun n => if n < 16 then f n else f (n ^^^ 1)) := by
  simp only [List.foldl_cons, List.foldl_nil]
  rw [swap_L, swap_L, swap_L, swap_L, swap_L, swap_L, swap_L, swap_L] <;> first | omega | skip
  apply L_ext; intro n hn; interval_cases n <;> rfl

theorem addRot_L' (k : Nat) (f : Nat → U32) : addRot k (L f) = L (fun n => if n < 16 then ((fun n => if n < 16 then f n else f n + f (n - 16)) n).rotateLeft k else
    (fun n => if n < 16 then f n else f n + f (n - 16)) n) := by
  rw [addRot_L]
  apply L_ext
  intro n _
  by_cases h : n < 16
  · simp only [if_pos h]
  · simp only [if_neg h]

theorem round_L (f : Nat → U32) : round (L f) = L (Spec.CubeHash.round f) := by
  unfold round
  dsimp only
  rw [addRot_L', sw8, xorHalf_L, sw2, addRot_L', sw4, xorHalf_L, sw1]
  rfl

theorem round_eq (x : List U32) (h : x.length = 32) : round x = Spec.CubeHash.roundL x := by
  conv_lhs => rw [eq_L x h]
  exact round_L _

end Verif.CubeHash
