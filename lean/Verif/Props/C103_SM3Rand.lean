import Verif.Props.C01_SM3
import Verif.Model.SM3Rand
import Verif.Spec.SM3Rand
import Verif.Padding
/-
sm3/rand.go, sm3/rand_df.go (C103 to C106).
-/
namespace Verif.Props
open Verif.SM3Rand

/-- What the derivation function of the code computes: the first 23 bytes of the second hash, bytes 23 to 31 of the first, 23 zero bytes. -/
def dfActual (m : Bytes) : Bytes :=
  (Spec.SM3.hash (be32 2#32 ++ be32 440#32 ++ m)).take 23 ++ (Spec.SM3.hash (be32 1#32 ++ be32 440#32 ++ m)).drop 23 ++ zeros 23

theorem dfActual_length (m : Bytes) : (dfActual m).length = 55 := by
  unfold dfActual
  rw [List.length_append, List.length_append, List.length_take, List.length_drop, C01_sm3_size, C01_sm3_size, zeros_length]
  rfl

/-- The objects behind a `DF` after the data `m`. -/
def DFRep (d : DF) (m : Bytes) : Prop :=
  d.a.Repr 64 SM3.block SM3.iv (be32 1#32 ++ be32 440#32 ++ m) ∧ d.b.Repr 64 SM3.block SM3.iv (be32 2#32 ++ be32 440#32 ++ m)

theorem sm3_write_rep {d : SM3.Digest} {m : Bytes} (h : d.Repr 64 SM3.block SM3.iv m) (p : Bytes) : (SM3.write d p).Repr 64 SM3.block SM3.iv (m ++ p) := by
  obtain ⟨s', e, h'⟩ := sm3_sim.write d m p h
  have : SM3.write d p = s' := congrArg Prod.fst (Option.some.inj e)
  rw [this]; exact h'

theorem df_reset_rep (d : DF) : DFRep d.reset [] := by
  constructor
  · rw [List.append_nil]
    exact sm3_write_rep (sm3_write_rep sm3_init _) _
  · rw [List.append_nil]
    exact sm3_write_rep (sm3_write_rep sm3_init _) _

theorem df_write_rep {d : DF} {m : Bytes} (h : DFRep d m) (p : Bytes) : DFRep (d.write p) (m ++ p) := by
  unfold DF.write
  by_cases hp : p.length > 0
  · rw [if_pos hp]
    have ha := sm3_write_rep h.1 p
    have hb := sm3_write_rep h.2 p
    rw [List.append_assoc] at ha hb
    exact ⟨ha, hb⟩
  · have : p = [] := List.eq_nil_of_length_eq_zero (by omega)
    rw [if_neg hp, this, List.append_nil]; exact h

theorem df_sum_eq {d : DF} {m : Bytes} (h : DFRep d m) (b : Bytes) : d.sum b = b ++ dfActual m := by
  unfold DF.sum DF.checkSum SM3.sum dfActual
  rw [SM3.checkSum_eq _ _ h.1, SM3.checkSum_eq _ _ h.2]
  have l1 := C01_sm3_size (be32 1#32 ++ be32 440#32 ++ m)
  have l2 := C01_sm3_size (be32 2#32 ++ be32 440#32 ++ m)
  generalize Spec.SM3.hash (be32 1#32 ++ be32 440#32 ++ m) = u at *
  generalize Spec.SM3.hash (be32 2#32 ++ be32 440#32 ++ m) = v at *
  have e1 : goCopy (zeros 55) 0 ([] ++ u) = u ++ zeros 23 := by
    unfold goCopy
    rw [List.nil_append, List.take_zero, List.nil_append, zeros_length, List.take_of_length_le (by omega), l1]; rfl
  have e2 : goCopy ((u ++ zeros 23).take (55 - 32)) 0 ([] ++ v) = v.take 23 := by
    unfold goCopy
    rw [List.nil_append, List.take_zero, List.nil_append, List.length_take, List.length_append, l1, zeros_length, l2,
      List.drop_of_length_le (by rw [List.length_take, List.length_append, l1, zeros_length]; decide), List.append_nil]; rfl
  dsimp only
  rw [e1, e2, List.drop_append, l1, show 55 - 32 - 32 = 0 from rfl, List.drop_zero, List.append_assoc]

/-- C103: every history of calls on a `DF`. -/
theorem sm3df_exact_partial : Refines implDF newDF { H := dfActual, size := 55, blockSize := 64 } := by
  refine refines_of_sim _ _ _ (fun d m => DFRep d m) (df_reset_rep _) ?_ ?_ ?_ ?_ ?_
  · intro d m p h; exact ⟨_, rfl, df_write_rep h p⟩
  · intro d m b h; exact ⟨d, by show some (d, d.sum b) = _; rw [df_sum_eq h], h⟩
  · intro d m _; exact df_reset_rep d
  · intros; rfl
  · intros; rfl

/-- C103 (violated): it is not the derivation function: the end is always zero, and for the empty input the values differ. -/
theorem sm3df_violated : (∀ m, (dfActual m).drop 32 = zeros 23) ∧ dfActual [] ≠ Spec.SM3Rand.df [] := by
  constructor
  · intro m
    unfold dfActual
    rw [List.drop_append, List.length_append, List.length_take, List.length_drop, C01_sm3_size, C01_sm3_size, List.drop_of_length_le]
    · rfl
    · rw [List.length_append, List.length_take, List.length_drop, C01_sm3_size, C01_sm3_size]; decide
  · unfold dfActual Spec.SM3Rand.df
    rw [← C01_sm3_oneshot, ← C01_sm3_oneshot]
    decide +kernel

/-- C104: the addition of the code: byte by byte, without carries. -/
def addActual (V a : Bytes) : Bytes := V.take (55 - a.length) ++ List.zipWith (· + ·) (V.drop (55 - a.length)) a

theorem addAt_zero (r : Bytes) (i : Nat) (x : Byte) : addAt (r, 0#32) i (x.setWidth 32) = (r.set i x, 0#32) := by
  have h1 : ∀ x : Byte, (0#32 + x.setWidth 32).setWidth 8 = x := by decide +kernel
  have h2 : ∀ x : Byte, (0#32 + x.setWidth 32).sshiftRight 8 = 0#32 := by decide +kernel
  unfold addAt
  dsimp only
  rw [h1, h2]

theorem at8_set (r : Bytes) (i j : Nat) (x : Byte) (h : i < r.length) : at8 (r.set i x) j = if i = j then x else at8 r j := by
  unfold at8
  simp only [List.getD_eq_getElem?_getD, List.getElem?_set]
  by_cases e : i = j
  · subst e; simp [h]
  · simp [e]

theorem getD_lt (l : Bytes) (i : Nat) (h : i < l.length) : l.getD i 0#8 = l[i] := by simp [h]

theorem beAdd_exact (r a : Bytes) (hr : r.length = 55) (ha : a.length ≤ 55) : beAdd r a = addActual r a := by
  have l1 : ∀ k, k ≤ a.length → ∃ r', forLoop 0 k (fun st t => addAt st (54 - t) ((at8 st.1 (54 - t) + at8 a (a.length - 1 - t)).setWidth 32)) (r, 0#32) = (r', 0#32) ∧
      r'.length = 55 ∧ ∀ i, i < 55 → at8 r' i = if 55 - k ≤ i then at8 r i + at8 a (i - (55 - a.length)) else at8 r i := by
    intro k
    induction k with
    | zero => intro _; exact ⟨r, rfl, hr, fun i hi => by rw [if_neg (by omega)]⟩
    | succ k ih =>
      intro hk
      obtain ⟨r', e, hl, hv⟩ := ih (by omega)
      rw [forLoop_succ _ _ _ _ (Nat.zero_le _), e]
      dsimp only
      rw [addAt_zero]
      refine ⟨_, rfl, by rw [List.length_set, hl], fun i hi => ?_⟩
      rw [at8_set _ _ _ _ (by omega)]
      by_cases h : 54 - k = i
      · rw [if_pos h, if_pos (by omega), hv _ (by omega), if_neg (by omega), h]
        congr 2; omega
      · rw [if_neg h, hv _ hi]
        by_cases h2 : 55 - k ≤ i
        · rw [if_pos h2, if_pos (by omega)]
        · rw [if_neg h2, if_neg (by omega)]
  obtain ⟨r1, e1, hl1, hv1⟩ := l1 a.length (Nat.le_refl _)
  have l2 : forLoop a.length 55 (fun st t => addAt st (54 - t) ((at8 st.1 (54 - t)).setWidth 32)) (r1, 0#32) = (r1, 0#32) := by
    refine forLoop_inv (fun _ st => st = (r1, 0#32)) ha rfl ?_
    rintro t st h1 h2 h3
    rw [h3]
    dsimp only
    rw [addAt_zero]
    have : r1.set (54 - t) (at8 r1 (54 - t)) = r1 := by
      unfold at8
      rw [getD_lt _ _ (by omega)]
      exact List.set_getElem_self _
    rw [this]
  unfold beAdd
  dsimp only
  rw [e1, l2]
  unfold addActual
  have hlen : (r.take (55 - a.length) ++ List.zipWith (· + ·) (r.drop (55 - a.length)) a).length = 55 := by
    rw [List.length_append, List.length_take, List.length_zipWith, List.length_drop]; omega
  apply List.ext_getElem (by rw [hl1, hlen])
  intro i h1 h2
  have hi : i < 55 := by omega
  have := hv1 i hi
  unfold at8 at this
  rw [getD_lt _ _ h1] at this
  dsimp only
  rw [this, getD_lt r _ (by omega)]
  by_cases h : 55 - a.length ≤ i
  · rw [if_pos h, List.getElem_append_right (by rw [List.length_take]; omega), List.getElem_zipWith, List.getElem_drop, getD_lt a _ (by omega)]
    simp only [List.length_take, hr, Nat.min_eq_left (Nat.sub_le _ _)]
    congr 2
    omega
  · rw [if_neg h, List.getElem_append_left (by rw [List.length_take]; omega), List.getElem_take]

end Verif.Props
