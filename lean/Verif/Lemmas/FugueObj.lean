import Verif.Lemmas.FugueRounds
import Verif.Padding
import Verif.HashAPI
/-
Package fugue: the final rounds and the digest object.
-/
namespace Verif.Fugue
open Spec.Fugue (Variant absorb)

/-! The final rounds -/
/-- The state of the final rounds: L columns in place. -/
structure Fin (L : Nat) (st : List U32 × List U32) (A : List U32) : Prop where
  l1 : st.1.length = 36
  l2 : st.2.length = 36
  lL : L ≤ 36
  eq : st.1.take L = A

theorem Fin.la {L st A} (h : Fin L st A) : A.length = L := by rw [← h.eq, List.length_take, h.l1]; exact Nat.min_eq_left h.lL

theorem ror_fin {L st A} (h : Fin L st A) (n : Nat) (hn : n ≤ L) : Fin L (ror n L st) (Spec.Fugue.ror n A) := by
  have h1 := h.l1
  have h2 := h.l2
  have hL := h.lL
  have hA := h.la
  obtain ⟨s, t⟩ := st
  dsimp only at h1 h2
  have hs : s = A.take (L - n) ++ A.drop (L - n) ++ s.drop L := by
    rw [List.take_append_drop, ← h.eq]; exact (List.take_append_drop L s).symm
  have e1 : (s.take L).drop (L - n) = A.drop (L - n) := by rw [h.eq]
  have e2 : s.take (L - n) = A.take (L - n) := by rw [← h.eq, List.take_take, Nat.min_eq_left (by omega)]
  unfold ror
  dsimp only
  rw [e1, e2]
  have ld : (A.drop (L - n)).length = n := by rw [List.length_drop]; omega
  have lt' : (A.take (L - n)).length = L - n := by rw [List.length_take]; omega
  have f1 : (goCopy t 0 (A.drop (L - n))).take n = A.drop (L - n) := by
    unfold goCopy
    rw [List.take_zero, List.nil_append, List.take_of_length_le (i := t.length - 0) (by omega), List.take_append_of_le_length (by omega), List.take_of_length_le (by omega)]
  have lt1 : (goCopy t 0 (A.drop (L - n))).length = 36 := by rw [goCopy_length _ _ _ (by omega)]; exact h2
  have f2 : goCopy s n (A.take (L - n)) = s.take n ++ A.take (L - n) ++ s.drop L := by
    unfold goCopy
    rw [List.take_of_length_le (i := s.length - n) (by omega), lt']
    congr 2; omega
  have f3 : goCopy (goCopy s n (A.take (L - n))) 0 ((goCopy t 0 (A.drop (L - n))).take n) = A.drop (L - n) ++ A.take (L - n) ++ s.drop L := by
    rw [f1, f2, List.append_assoc, goCopy_head _ _ _ (by rw [ld, List.length_take]; omega), List.append_assoc]
  rw [f3]
  refine ⟨?_, lt1, hL, ?_⟩
  · simp only [List.length_append, ld, lt', List.length_drop]; omega
  · unfold Spec.Fugue.ror
    rw [List.take_append_of_le_length (by rw [List.length_append]; omega), List.take_of_length_le (by rw [List.length_append]; omega), hA]

theorem Fin.ix {L st A} (h : Fin L st A) (i : Nat) (hi : i < L) : ix st.1 i = ix A i := by rw [← h.eq, ix_take _ _ _ hi]

theorem Fin.set {L st A} (h : Fin L st A) (i : Nat) (x : U32) : Fin L (st.1.set i x, st.2) (A.set i x) :=
  ⟨by rw [List.length_set, h.l1], h.l2, h.lL, by rw [List.take_set, h.eq]⟩

theorem Fin.exec1 {L st A} (h : Fin L st A) (w : U32) (s : Stmt) (hs : s.ok L = true) : Fin L (exec1 w st.1 s, st.2) (exec1 w A s) := by
  cases s with
  | xs i j =>
    simp only [Stmt.ok, Bool.and_eq_true, decide_eq_true_eq] at hs
    show Fin L (st.1.set _ _, _) (A.set _ _)
    rw [h.ix i hs.1, h.ix j hs.2]; exact h.set i _
  | ld i => exact h.set i _
  | smix a b c e =>
    simp only [Stmt.ok, Bool.and_eq_true, decide_eq_true_eq] at hs
    obtain ⟨⟨⟨ha, hb⟩, hc⟩, he⟩ := hs
    show Fin L (smix st.1 _ _ _ _, _) (smix A _ _ _ _)
    unfold smix
    dsimp only
    rw [h.ix a ha, h.ix b hb, h.ix c hc, h.ix e he]
    exact (((h.set a _).set b _).set c _).set e _

theorem Fin.exec {L st A} (h : Fin L st A) (w : U32) (p : List Stmt) (hp : p.all (Stmt.ok L) = true) : Fin L (onS (fun S => exec w S p) st) (exec w A p) := by
  induction p generalizing st A with
  | nil => exact h
  | cons s p ih =>
    rw [List.all_cons, Bool.and_eq_true] at hp
    exact ih (h.exec1 w s hp.1) hp.2

theorem Fin.smix {L st A} (h : Fin L st A) (hL : 4 ≤ L) : Fin L (onS (fun S => smix S 0 1 2 3) st) (Spec.Fugue.smix A) := by
  rw [← smix_eq A (by rw [h.la]; exact hL)]
  exact h.exec1 0 (.smix 0 1 2 3) (by simp [Stmt.ok]; omega)

/-- A final round. -/
theorem Fin.step {L st A} (h : Fin L st A) (p : List Stmt) (hp : p.all (Stmt.ok L) = true) (n : Nat) (hn : n ≤ L) (hL : 4 ≤ L) :
    Fin L (onS (fun S => Fugue.smix S 0 1 2 3) (ror n L (onS (fun S => Fugue.exec 0 S p) st))) (Spec.Fugue.smix (Spec.Fugue.ror n (Fugue.exec 0 A p))) :=
  (ror_fin (h.exec 0 p hp) n hn).smix hL

theorem fin_subs (L : Nat) (f : List U32 × List U32 → List U32 × List U32)
    (hf : ∀ st A, Fin L st A → Fin L (f st) (Spec.Fugue.sub A)) (n : Nat) :
    ∀ st A, Fin L st A → Fin L (forLoop 0 n (fun st _ => f st) st) (Spec.Fugue.subs n A) := by
  intro st A h
  rw [show forLoop 0 n (fun st _ => f st) st = (List.range n).foldl (fun st _ => f st) st from by unfold forLoop; rw [Nat.sub_zero, List.range_eq_range']]
  suffices H : ∀ (l : List Nat) st A, Fin L st A → Fin L (l.foldl (fun st _ => f st) st) (Spec.Fugue.subs l.length A) by
    have := H (List.range n) st A h
    rwa [List.length_range] at this
  intro l
  induction l with
  | nil => intro st A h; exact h
  | cons a l ih => intro st A h; exact ih _ _ (hf _ _ h)

theorem fin_iter (L : Nat) (f : List U32 × List U32 → List U32 × List U32) (g : List U32 → List U32)
    (hf : ∀ st A, Fin L st A → Fin L (f st) (g A)) (n : Nat) :
    ∀ st A, Fin L st A → Fin L (forLoop 0 n (fun st _ => f st) st) (Spec.Fugue.iter n g A) := by
  intro st A h
  rw [show forLoop 0 n (fun st _ => f st) st = (List.range n).foldl (fun st _ => f st) st from by unfold forLoop; rw [Nat.sub_zero, List.range_eq_range']]
  suffices H : ∀ (l : List Nat) st A, Fin L st A → Fin L (l.foldl (fun st _ => f st) st) (Spec.Fugue.iter l.length g A) by
    have := H (List.range n) st A h
    rwa [List.length_range] at this
  intro l
  induction l with
  | nil => intro st A h; exact h
  | cons a l ih => intro st A h; exact ih _ _ (hf _ _ h)

theorem fin_sub30 (st A) (h : Fin 30 st A) : Fin 30 (onS (fun S => smix (cmix30 S) 0 1 2 3) (ror 3 30 st)) (Spec.Fugue.sub A) := by
  have hr := ror_fin h 3 (by omega)
  have := (hr.exec 0 [.xs 0 4, .xs 1 5, .xs 2 6, .xs 15 4, .xs 16 5, .xs 17 6] rfl).smix (by omega)
  unfold Spec.Fugue.sub Spec.Fugue.cmix
  dsimp only
  rw [hr.la]
  exact this
theorem fin_sub36 (st A) (h : Fin 36 st A) : Fin 36 (onS (fun S => smix (cmix36 S) 0 1 2 3) (ror 3 36 st)) (Spec.Fugue.sub A) := by
  have hr := ror_fin h 3 (by omega)
  have := (hr.exec 0 [.xs 0 4, .xs 1 5, .xs 2 6, .xs 18 4, .xs 19 5, .xs 20 6] rfl).smix (by omega)
  unfold Spec.Fugue.sub Spec.Fugue.cmix
  dsimp only
  rw [hr.la]
  exact this

/-- The rotated state put in place. -/
theorem rel_fin {L off S A t} (h : Rel L off S A) (ht : t.length = 36) : Fin L (ror off L (S, t)) A := by
  have h0 : Fin L (S, t) (S.take L) := ⟨h.ls, ht, h.lL, rfl⟩
  have := ror_fin h0 off (Nat.le_of_lt h.off_lt)
  have e : Spec.Fugue.ror off (S.take L) = A := by
    have hl : (S.take L).length = L := h0.la
    apply List.ext_getElem
    · rw [ror_length, hl, h.la]
    · intro i h1 h2
      rw [h.la] at h2
      have a := ix_ror off (S.take L) i (by rw [hl]; exact Nat.le_of_lt h.off_lt) (by rw [hl]; exact h2)
      rw [hl, ix_take _ _ _ (rho_lt h.off_lt h2), ← h.eq i h2] at a
      unfold ix at a
      rw [List.getD_eq_getElem?_getD, List.getD_eq_getElem?_getD, List.getElem?_eq_getElem h1, List.getElem?_eq_getElem (by rw [h.la]; exact h2)] at a
      exact a
  rwa [e] at this

theorem x2 (i j : Nat) (A : List U32) : exec 0 A [.xs i 0, .xs j 0] = Spec.Fugue.add j 0 (Spec.Fugue.add i 0 A) := rfl
theorem x3 (i j k : Nat) (A : List U32) : exec 0 A [.xs i 0, .xs j 0, .xs k 0] = Spec.Fugue.add k 0 (Spec.Fugue.add j 0 (Spec.Fugue.add i 0 A)) := rfl
theorem x4 (i j k l : Nat) (A : List U32) : exec 0 A [.xs i 0, .xs j 0, .xs k 0, .xs l 0] = Spec.Fugue.add l 0 (Spec.Fugue.add k 0 (Spec.Fugue.add j 0 (Spec.Fugue.add i 0 A))) := rfl

theorem flat_congr (F A : List U32) (l : List Nat) (h : ∀ i, i ∈ l → ix F i = ix A i) : l.flatMap (fun i => be32 (ix F i)) = l.flatMap fun i => be32 (Spec.Fugue.col A i) := by
  induction l with
  | nil => rfl
  | cons a l ih =>
    rw [List.flatMap_cons, List.flatMap_cons, h a (List.mem_cons_self ..), ih fun i hi => h i (List.mem_cons_of_mem _ hi)]; rfl

attribute [local irreducible] forLoop Spec.Fugue.iter Spec.Fugue.subs smix exec ror Spec.Fugue.ror Spec.Fugue.smix Spec.Fugue.add

theorem final256 (d : Digest) (A : List U32) (h : Rel 30 (6 * d.rshift) d.s A) (ht : d.tmpS.length = 36) (b : Bool) (hb : b = decide (d.hs ≥ 32)) :
    processFinal2 d = (if b then [1, 2, 3, 4, 15, 16, 17, 18] else [1, 2, 3, 4, 15, 16, 17]).flatMap fun i => be32 (Spec.Fugue.col (Spec.Fugue.G256 A) i) := by
  have h1 := fin_subs 30 _ fin_sub30 10 _ _ (rel_fin h ht)
  have h2 := fin_iter 30 _ _
    (fun st A h => (h.step [.xs 4 0, .xs 15 0] rfl 15 (by omega) (by omega)).step [.xs 4 0, .xs 16 0] rfl 14 (by omega) (by omega)) 13 _ _ h1
  have h3 := h2.exec 0 [.xs 4 0, .xs 15 0] rfl
  simp only [x2] at h3
  have hx := h3.ix
  unfold processFinal2 Spec.Fugue.G256
  dsimp only [onS] at hx ⊢
  simp only [x2]
  generalize Spec.Fugue.add 15 0 (Spec.Fugue.add 4 0 (Prod.fst (α := List U32) (β := List U32) (forLoop _ _ _ _))) = F at hx ⊢
  generalize Spec.Fugue.add 15 0 (Spec.Fugue.add 4 0 (Spec.Fugue.iter _ _ _)) = A' at hx ⊢
  by_cases c : d.hs ≥ 32
  · rw [if_pos c, hb, if_pos (by simp [c])]
    rw [← flat_congr F A' _ (fun i hi => hx i (by simp at hi; omega))]; rfl
  · rw [if_neg c, hb, if_neg (by simp [c]), List.append_nil, flat_congr F A' _ (fun i hi => hx i (by simp at hi; omega))]

theorem final384 (d : Digest) (A : List U32) (h : Rel 36 (9 * d.rshift) d.s A) (ht : d.tmpS.length = 36) :
    processFinal384 d = [1, 2, 3, 4, 12, 13, 14, 15, 24, 25, 26, 27].flatMap fun i => be32 (Spec.Fugue.col (Spec.Fugue.G384 A) i) := by
  have h1 := fin_subs 36 _ fin_sub36 18 _ _ (rel_fin h ht)
  have h2 := fin_iter 36 _ _
    (fun st A h => ((h.step [.xs 4 0, .xs 12 0, .xs 24 0] rfl 12 (by omega) (by omega)).step [.xs 4 0, .xs 13 0, .xs 24 0] rfl 12 (by omega) (by omega)).step [.xs 4 0, .xs 13 0, .xs 25 0] rfl 11 (by omega) (by omega)) 13 _ _ h1
  have h3 := h2.exec 0 [.xs 4 0, .xs 12 0, .xs 24 0] rfl
  simp only [x3] at h3
  have hx := h3.ix
  unfold processFinal384 Spec.Fugue.G384
  dsimp only [onS] at hx ⊢
  simp only [x3]
  exact flat_congr _ _ _ (fun i hi => hx i (by simp at hi; omega))
theorem final512 (d : Digest) (A : List U32) (h : Rel 36 (12 * d.rshift) d.s A) (ht : d.tmpS.length = 36) :
    processFinal512 d = [1, 2, 3, 4, 9, 10, 11, 12, 18, 19, 20, 21, 27, 28, 29, 30].flatMap fun i => be32 (Spec.Fugue.col (Spec.Fugue.G512 A) i) := by
  have h1 := fin_subs 36 _ fin_sub36 32 _ _ (rel_fin h ht)
  have h2 := fin_iter 36 _ _
    (fun st A h => (((h.step [.xs 4 0, .xs 9 0, .xs 18 0, .xs 27 0] rfl 9 (by omega) (by omega)).step [.xs 4 0, .xs 10 0, .xs 18 0, .xs 27 0] rfl 9 (by omega) (by omega)).step [.xs 4 0, .xs 10 0, .xs 19 0, .xs 27 0] rfl 9 (by omega) (by omega)).step [.xs 4 0, .xs 10 0, .xs 19 0, .xs 28 0] rfl 8 (by omega) (by omega)) 13 _ _ h1
  have h3 := h2.exec 0 [.xs 4 0, .xs 9 0, .xs 18 0, .xs 27 0] rfl
  simp only [x4] at h3
  have hx := h3.ix
  unfold processFinal512 Spec.Fugue.G512
  dsimp only [onS] at hx ⊢
  simp only [x4]
  exact flat_congr _ _ _ (fun i hi => hx i (by simp at hi; omega))

end Verif.Fugue
