import Verif.Lemmas.SIMD3
namespace Verif.SIMD

theorem getD_map (n : Nat) (f : Nat → U32) (i : Nat) (h : i < n) : ((List.range n).map f).getD i 0 = f i := by
  rw [List.getD_eq_getElem?_getD, List.getElem?_map, List.getElem?_range h]; rfl

theorem app_left (a b : List U32) (i : Nat) (h : i < a.length) : (a ++ b).getD i 0 = a.getD i 0 := by
  simp only [List.getD_eq_getElem?_getD]; rw [List.getElem?_append_left h]
theorem app_right (a b : List U32) (i n : Nat) (h : a.length = n) : (a ++ b).getD (n + i) 0 = b.getD i 0 := by
  simp only [List.getD_eq_getElem?_getD]; rw [List.getElem?_append_right (by omega)]; congr 2; omega

theorem lanes_ext (n : Nat) (a b : List U32) (ha : a.length = 4 * n) (hb : b.length = 4 * n)
    (h : ∀ i < n, a.getD i 0 = b.getD i 0 ∧ a.getD (n + i) 0 = b.getD (n + i) 0 ∧ a.getD (2 * n + i) 0 = b.getD (2 * n + i) 0 ∧ a.getD (3 * n + i) 0 = b.getD (3 * n + i) 0) : a = b := by
  apply List.ext_getElem (by omega)
  intro j h1 h2
  have hj : a.getD j 0 = b.getD j 0 := by
    by_cases c1 : j < n
    · exact (h j c1).1
    · by_cases c2 : j < 2 * n
      · have := (h (j - n) (by omega)).2.1
        rwa [show n + (j - n) = j by omega] at this
      · by_cases c3 : j < 3 * n
        · have := (h (j - 2 * n) (by omega)).2.2.1
          rwa [show 2 * n + (j - 2 * n) = j by omega] at this
        · have := (h (j - 3 * n) (by omega)).2.2.2
          rwa [show 3 * n + (j - 3 * n) = j by omega] at this
  rw [List.getD_eq_getElem?_getD, List.getD_eq_getElem?_getD, List.getElem?_eq_getElem h1, List.getElem?_eq_getElem h2] at hj
  exact hj

/-- The state after k lanes. -/
structure Lanes (n : Nat) (st : List U32) (A T : Nat → U32) (k : Nat) (r : List U32) : Prop where
  len : r.length = 4 * n
  done : ∀ i < n, i < k → r.getD i 0 = A i ∧ r.getD (n + i) 0 = T i ∧ r.getD (2 * n + i) 0 = st.getD (n + i) 0 ∧ r.getD (3 * n + i) 0 = st.getD (2 * n + i) 0
  todo : ∀ i < n, k ≤ i → r.getD i 0 = st.getD i 0 ∧ r.getD (n + i) 0 = st.getD (n + i) 0 ∧ r.getD (2 * n + i) 0 = st.getD (2 * n + i) 0 ∧ r.getD (3 * n + i) 0 = st.getD (3 * n + i) 0

theorem set4 (n : Nat) (r : List U32) (hr : r.length = 4 * n) (k : Nat) (hk : k < n) (a b c d : U32) :
    ((((r.set k a).set (3 * n + k) b).set (2 * n + k) c).set (n + k) d).length = 4 * n ∧
    ∀ i < n, let s := (((r.set k a).set (3 * n + k) b).set (2 * n + k) c).set (n + k) d
      s.getD i 0 = (if k = i then a else r.getD i 0) ∧ s.getD (n + i) 0 = (if k = i then d else r.getD (n + i) 0) ∧
      s.getD (2 * n + i) 0 = (if k = i then c else r.getD (2 * n + i) 0) ∧ s.getD (3 * n + i) 0 = (if k = i then b else r.getD (3 * n + i) 0) := by
  refine ⟨by simp [hr], ?_⟩
  intro i hi
  have l1 : k < r.length := by omega
  have l2 : 3 * n + k < (r.set k a).length := by simp; omega
  have l3 : 2 * n + k < ((r.set k a).set (3 * n + k) b).length := by simp; omega
  have l4 : n + k < (((r.set k a).set (3 * n + k) b).set (2 * n + k) c).length := by simp; omega
  dsimp only
  simp only [getD_set _ _ _ _ l4, getD_set _ _ _ _ l3, getD_set _ _ _ _ l2, getD_set _ _ _ _ l1]
  by_cases e : k = i
  · subst e
    refine ⟨?_, ?_, ?_, ?_⟩
    · rw [if_neg (by omega), if_neg (by omega), if_neg (by omega)]
    · rw [if_pos rfl, if_pos rfl]
    · rw [if_neg (by omega), if_pos rfl, if_pos rfl]
    · rw [if_neg (by omega), if_neg (by omega), if_pos rfl, if_pos rfl]
  · refine ⟨?_, ?_, ?_, ?_⟩
    · rw [if_neg (by omega), if_neg (by omega), if_neg (by omega)]
    · rw [if_neg (by omega), if_neg (by omega), if_neg (by omega), if_neg (by omega), if_neg e]
    · rw [if_neg (by omega), if_neg (by omega), if_neg (by omega), if_neg (by omega), if_neg e]
    · rw [if_neg (by omega), if_neg (by omega), if_neg (by omega), if_neg (by omega), if_neg e]

theorem step_lanes (n : Nat) (φ : U32 → U32 → U32 → U32) (ti : Nat → Nat) (r s : Nat) (w : Nat → U32) (st : List U32) (hl : st.length = 4 * n) (hti : ∀ i < n, ti i < n) :
    Lanes n st (fun i => (st.getD (3 * n + i) 0 + w i + φ (st.getD i 0) (st.getD (n + i) 0) (st.getD (2 * n + i) 0)).rotateLeft s + (st.getD (ti i) 0).rotateLeft r)
      (fun i => (st.getD i 0).rotateLeft r) n (step n φ ti r s w st) := by
  unfold step
  dsimp only
  refine forLoop_inv (P := fun k q => Lanes n st _ _ k q) (Nat.zero_le n) ?_ ?_
  · exact ⟨hl, fun i _ h => absurd h (Nat.not_lt_zero _), fun i _ _ => ⟨rfl, rfl, rfl, rfl⟩⟩
  · intro k q _ hk hq
    obtain ⟨t1, t2, t3, t4⟩ := hq.todo k hk (Nat.le_refl k)
    have hlq := hq.len
    have e1 : ∀ x : U32, (q.set k x).getD (2 * n + k) 0 = st.getD (2 * n + k) 0 := by
      intro x; rw [getD_set _ _ _ _ (by omega), if_neg (by omega), t3]
    have e2 : ∀ x y : U32, ((q.set k x).set (3 * n + k) y).getD (n + k) 0 = st.getD (n + k) 0 := by
      intro x y; rw [getD_set _ _ _ _ (by simp; omega), if_neg (by omega), getD_set _ _ _ _ (by omega), if_neg (by omega), t2]
    rw [e1, t1, t2, t3, t4, getD_map _ _ _ (hti k hk), getD_map _ _ _ hk]
    rw [e2]
    obtain ⟨s1, s2⟩ := set4 n q hlq k hk ((st.getD (3 * n + k) 0 + w k + φ (st.getD k 0) (st.getD (n + k) 0) (st.getD (2 * n + k) 0)).rotateLeft s + (st.getD (ti k) 0).rotateLeft r)
      (st.getD (2 * n + k) 0) (st.getD (n + k) 0) ((st.getD k 0).rotateLeft r)
    refine ⟨s1, fun i hi hk' => ?_, fun i hi hk' => ?_⟩
    · obtain ⟨a1, a2, a3, a4⟩ := s2 i hi
      rw [a1, a2, a3, a4]
      by_cases e : k = i
      · subst e; simp
      · rw [if_neg e, if_neg e, if_neg e, if_neg e]; exact hq.done i hi (by omega)
    · obtain ⟨a1, a2, a3, a4⟩ := s2 i hi
      rw [a1, a2, a3, a4]
      have e : k ≠ i := by omega
      rw [if_neg e, if_neg e, if_neg e, if_neg e]; exact hq.todo i hi (by omega)

theorem spec_step_length (n : Nat) (φ : U32 → U32 → U32 → U32) (p r s : Nat) (w : Nat → U32) (st : List U32) : (Spec.SIMD.step n φ p r s w st).length = 4 * n := by
  unfold Spec.SIMD.step; simp; omega

theorem step_eq (n : Nat) (φ φ' : U32 → U32 → U32 → U32) (ti : Nat → Nat) (p r s : Nat) (w w' : Nat → U32) (st : List U32) (hl : st.length = 4 * n)
    (hti : ∀ i < n, ti i = i ^^^ p ∧ ti i < n) (hw : ∀ i < n, w i = w' i) (hφ : ∀ a b c, φ a b c = φ' a b c) :
    step n φ ti r s w st = Spec.SIMD.step n φ' p r s w' st := by
  have h := step_lanes n φ ti r s w st hl (fun i hi => (hti i hi).2)
  apply lanes_ext n _ _ h.len (spec_step_length _ _ _ _ _ _ _)
  intro i hi
  obtain ⟨a1, a2, a3, a4⟩ := h.done i hi hi
  rw [a1, a2, a3, a4]
  unfold Spec.SIMD.step Spec.SIMD.g
  dsimp only
  refine ⟨?_, ?_, ?_, ?_⟩
  · rw [app_left _ _ _ (by simp; omega), app_left _ _ _ (by simp; omega), app_left _ _ _ (by simp; omega), getD_map _ _ _ hi, hφ, hw i hi, (hti i hi).1]
  · rw [app_left _ _ _ (by simp; omega), app_left _ _ _ (by simp; omega), app_right _ _ i n (by simp), getD_map _ _ _ hi]
  · rw [app_left _ _ _ (by simp; omega), app_right _ _ i (2 * n) (by simp; omega), getD_map _ _ _ hi]
  · rw [app_right _ _ i (3 * n) (by simp; omega), getD_map _ _ _ hi]

theorem IF_eq (a b c : U32) : fIF a b c = Spec.SIMD.IF a b c := by
  unfold fIF Spec.SIMD.IF
  apply BitVec.eq_of_getLsbD_eq
  intro i hi
  simp only [BitVec.getLsbD_xor, BitVec.getLsbD_and, BitVec.getLsbD_or, BitVec.getLsbD_not, hi, decide_true, Bool.true_and]
  cases a.getLsbD i <;> cases b.getLsbD i <;> cases c.getLsbD i <;> rfl
theorem MAJ_eq (a b c : U32) : fMAJ a b c = Spec.SIMD.MAJ a b c := by
  unfold fMAJ Spec.SIMD.MAJ
  apply BitVec.eq_of_getLsbD_eq
  intro i hi
  simp only [BitVec.getLsbD_and, BitVec.getLsbD_or]
  cases a.getLsbD i <;> cases b.getLsbD i <;> cases c.getLsbD i <;> rfl

end Verif.SIMD
