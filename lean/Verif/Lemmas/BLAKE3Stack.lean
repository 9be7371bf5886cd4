import Verif.Lemmas.BLAKE3Tree
/-
The stack of chaining values of package blake3.
-/
namespace Verif.BLAKE3
open Verif.Spec

/-- A full subtree on the stack: the exponent of its number of chunks, and its bytes. -/
abbrev Seg := Nat × Bytes

/-- The exponents from the top. -/
def exps (l : List Seg) : List Nat := l.map Prod.fst
/-- The bytes under the stack (the argument is listed from the top). -/
def flat : List Seg → Bytes
  | [] => []
  | s :: l => flat l ++ s.2
/-- The chaining values on the stack, from the bottom. -/
def stk (key : List U32) (fl : Byte) : List Seg → Bytes
  | [] => []
  | s :: l => stk key fl l ++ (BLAKE3.tree key fl (sum2 (exps l)) s.2).cv

theorem stk_cons (key : List U32) (fl : Byte) (s : Seg) (l : List Seg) :
    stk key fl (s :: l) = stk key fl l ++ (BLAKE3.tree key fl (sum2 (exps l)) s.2).cv := rfl

/-- Every segment has the length its exponent says. -/
def Sized (l : List Seg) : Prop := ∀ s ∈ l, s.2.length = 1024 * 2 ^ s.1

theorem stk_length (key : List U32) (fl : Byte) (hk : key.length = 8) : ∀ l, (stk key fl l).length = 32 * l.length
  | [] => rfl
  | s :: l => by
    unfold stk
    rw [List.length_append, stk_length key fl hk l, tree_cv_length _ _ hk, List.length_cons]; omega

theorem flat_length : ∀ {l : List Seg}, Sized l → (flat l).length = 1024 * sum2 (exps l)
  | [], _ => rfl
  | s :: l, h => by
    unfold flat
    rw [List.length_append, flat_length (fun x hx => h x (List.mem_cons_of_mem _ hx)), h s (List.mem_cons_self ..)]
    show _ = 1024 * (2 ^ s.1 + sum2 (exps l))
    omega

/-- The stack of the digest holds the chaining values of the segments. -/
structure Stk (key : List U32) (fl : Byte) (d : Digest) (l : List Seg) : Prop where
  dkey : d.key = key
  dfl : d.chunk.flags = fl
  len : d.cv_stack_len = BitVec.ofNat 8 l.length
  total : d.cv_stack.length = 55 * 32
  pre : ∃ rest, d.cv_stack = stk key fl l ++ rest
  sized : Sized l

theorem goCopy_mid (a b c x : Bytes) (h : b.length = x.length) : goCopy (a ++ b ++ c) a.length x = a ++ x ++ c := by
  unfold goCopy
  have e : (a ++ b ++ c).length - a.length = b.length + c.length := by simp only [List.length_append]; omega
  rw [e, List.append_assoc a b c, List.take_left, List.take_of_length_le (by omega), ← h, ← List.length_append, ← List.append_assoc a b c, List.drop_left]

theorem parent_repr {key : List U32} {fl : Byte} (hk : key.length = 8) (l r : Bytes) (h : (l ++ r).length = 64) :
    ORepr (parent_output (l ++ r) key fl) (BLAKE3.parent key fl l r) := by
  refine ⟨rfl, hk, ?_, by rw [show (BLAKE3.parent key fl l r).block = l ++ r from rfl, h]; exact Nat.le_refl _, ?_, rfl, rfl⟩
  · show l ++ r = (l ++ r) ++ zeros (64 - (l ++ r).length)
    rw [h]; exact (List.append_nil _).symm
  · show 64#8 = BitVec.ofNat 8 (l ++ r).length
    rw [h]

theorem append_ne_nil_of_pos {y : Bytes} (h : 0 < y.length) : y ≠ [] := fun e => by rw [e] at h; exact absurd h (by decide)

theorem Stk.mergeOne {key : List U32} {fl : Byte} {d : Digest} {e : Nat} {a b : Bytes} {l : List Seg} (hk : key.length = 8)
    (h : Stk key fl d ((e, a) :: (e, b) :: l)) (hl : l.length ≤ 7) :
    Stk key fl d.mergeOne ((e + 1, b ++ a) :: l) ∧ d.mergeOne.chunk = d.chunk ∧ d.mergeOne.hs = d.hs := by
  have ha : a.length = 1024 * 2 ^ e := h.sized (e, a) (by simp)
  have hb : b.length = 1024 * 2 ^ e := h.sized (e, b) (by simp)
  have hp := Nat.two_pow_pos e
  obtain ⟨rest, hr⟩ := h.pre
  have hoff : ((d.cv_stack_len - 2#8) * 32#8).toNat = 32 * l.length := by
    have e1 : d.cv_stack_len - 2#8 = BitVec.ofNat 8 l.length := by
      rw [h.len]
      apply BitVec.eq_of_toNat_eq
      rw [BitVec.toNat_sub]
      simp only [List.length_cons, BitVec.toNat_ofNat]
      omega
    rw [e1, BitVec.toNat_mul, BitVec.toNat_ofNat]
    simp only [BitVec.toNat_ofNat]
    omega
  have hlen' : d.cv_stack_len - 1 = BitVec.ofNat 8 (l.length + 1) := by
    rw [h.len]
    apply BitVec.eq_of_toNat_eq
    rw [BitVec.toNat_sub]
    simp only [List.length_cons, BitVec.toNat_ofNat, BitVec.ofNat_eq_ofNat]
    omega
  have hsp := tree_split key fl (sum2 (exps l)) e b a hb (append_ne_nil_of_pos (by omega)) (by omega)
  have cb := tree_cv_length key fl hk (sum2 (exps l)) b
  have ca := tree_cv_length key fl hk (sum2 (exps l) + 2 ^ e) a
  have hst : stk key fl ((e, a) :: (e, b) :: l) = stk key fl l ++ ((BLAKE3.tree key fl (sum2 (exps l)) b).cv ++ (BLAKE3.tree key fl (sum2 (exps l) + 2 ^ e) a).cv) := by
    simp only [stk]
    rw [show sum2 (exps ((e, b) :: l)) = sum2 (exps l) + 2 ^ e from Nat.add_comm _ _, List.append_assoc]
  have hst2 : stk key fl ((e + 1, b ++ a) :: l) = stk key fl l ++ (BLAKE3.parent key fl (BLAKE3.tree key fl (sum2 (exps l)) b).cv (BLAKE3.tree key fl (sum2 (exps l) + 2 ^ e) a).cv).cv := by
    simp only [stk]; rw [hsp]
  have cp : (BLAKE3.parent key fl (BLAKE3.tree key fl (sum2 (exps l)) b).cv (BLAKE3.tree key fl (sum2 (exps l) + 2 ^ e) a).cv).cv.length = 32 := cv_length hk
  rw [hst] at hr
  generalize (BLAKE3.tree key fl (sum2 (exps l)) b).cv = cvb at *
  generalize (BLAKE3.tree key fl (sum2 (exps l) + 2 ^ e) a).cv = cva at *
  have hS := stk_length key fl hk l
  have h64 : (cvb ++ cva).length = 64 := by rw [List.length_append]; omega
  have hnode : goCopy (zeros 64) 0 ((d.cv_stack.drop (32 * l.length)).take 64) = cvb ++ cva := by
    rw [hr, ← hS, List.append_assoc, List.drop_left, List.take_left' h64, goCopy_block _ h64]
  have hcv : (parent_output (cvb ++ cva) key fl).chainingValue = (BLAKE3.parent key fl cvb cva).cv := (parent_repr hk cvb cva h64).cv
  have hm : d.mergeOne = { d with cv_stack := goCopy d.cv_stack (32 * l.length) (BLAKE3.parent key fl cvb cva).cv, cv_stack_len := d.cv_stack_len - 1 } := by
    unfold Digest.mergeOne
    dsimp only
    rw [hoff, hnode, h.dkey, h.dfl, hcv]
  have hnew : goCopy d.cv_stack (32 * l.length) (BLAKE3.parent key fl cvb cva).cv = stk key fl ((e + 1, b ++ a) :: l) ++ (cva ++ rest) := by
    rw [hr, hst2, ← hS]
    rw [show stk key fl l ++ (cvb ++ cva) ++ rest = stk key fl l ++ cvb ++ (cva ++ rest) by simp only [List.append_assoc]]
    exact goCopy_mid _ _ _ _ (by omega)
  rw [hm]
  refine ⟨⟨h.dkey, h.dfl, ?_, ?_, ⟨_, hnew⟩, ?_⟩, rfl, rfl⟩
  · rw [List.length_cons]; exact hlen'
  · show (goCopy d.cv_stack _ _).length = _
    rw [goCopy_length _ _ _ (by rw [h.total]; omega), h.total]
  · intro s hs
    rcases List.mem_cons.mp hs with rfl | hs
    · show (b ++ a).length = 1024 * 2 ^ (e + 1)
      rw [List.length_append, Nat.pow_succ]; omega
    · exact h.sized s (by simp [hs])

theorem exps_length (l : List Seg) : (exps l).length = l.length := by simp [exps]

theorem near_length {k : Nat} {l : List Nat} (h : Near l) (hs : sum2 l < 2 ^ k) : l.length ≤ k + 1 := by
  cases l with
  | nil => simp
  | cons e l =>
    have := strict_length (a := 0) h.2 (fun _ _ => Nat.zero_le _) (Nat.lt_of_le_of_lt (by have := Nat.two_pow_pos e; simp only [sum2]; omega) hs : sum2 l < 2 ^ k)
    simp only [List.length_cons]; omega

/-- The merging loop leaves strictly decreasing subtrees over the same bytes. -/
theorem Stk.mergeLoop {key : List U32} {fl : Byte} (hk : key.length = 8) : ∀ (fuel : Nat) {d : Digest} {l : List Seg},
    Stk key fl d l → Near (exps l) → sum2 (exps l) < 256 → l.length ≤ fuel →
    ∃ l', Stk key fl (d.mergeLoop (popcnt (sum2 (exps l))) fuel) l' ∧ Strict (exps l') ∧ sum2 (exps l') = sum2 (exps l) ∧ flat l' = flat l ∧
      (d.mergeLoop (popcnt (sum2 (exps l))) fuel).chunk = d.chunk ∧ (d.mergeLoop (popcnt (sum2 (exps l))) fuel).hs = d.hs ∧
      (Strict (exps l) → l' = l) := by
  intro fuel
  induction fuel with
  | zero =>
    intro d l h hn hs hf
    have : l = [] := List.length_eq_zero_iff.mp (by omega)
    subst this
    exact ⟨[], h, trivial, rfl, rfl, rfl, rfl, fun _ => rfl⟩
  | succ fuel ih =>
    intro d l h hn hs hf
    have hle : l.length ≤ 9 := by rw [← exps_length]; exact near_length (k := 8) hn hs
    have hlen : d.cv_stack_len.toNat = l.length := by rw [h.len, BitVec.toNat_ofNat, Nat.mod_eq_of_lt (by omega)]
    have h64 : sum2 (exps l) < 2 ^ 64 := Nat.lt_of_lt_of_le hs (by decide)
    unfold Digest.mergeLoop
    rcases hn.cases with hst | ⟨e, l', hl'⟩
    · have hc : ¬ d.cv_stack_len.toNat > popcnt (sum2 (exps l)) := by rw [hlen, popcnt_strict hst h64, exps_length]; omega
      rw [if_neg hc]
      exact ⟨l, h, hst, rfl, rfl, rfl, rfl, fun _ => rfl⟩
    · have hnl : ¬ Strict (exps l) := by
        rw [hl']; intro hstr; exact absurd (hstr.1 e (List.mem_cons_self ..)) (Nat.lt_irrefl _)
      match l, hl' with
      | (e1, a) :: (e2, b) :: l2, hl' =>
        simp only [exps, List.map_cons, List.cons.injEq] at hl'
        obtain ⟨rfl, rfl, hl2⟩ := hl'
        simp only [List.length_cons] at hle hf hlen
        have hc : d.cv_stack_len.toNat > popcnt (sum2 (exps ((e2, a) :: (e2, b) :: l2))) := by
          have := popcnt_lt (e := e2) (l := exps l2) hn h64
          rw [hlen]
          simp only [List.length_cons, exps_length] at this
          exact this
        rw [if_pos hc]
        obtain ⟨m1, m2, m3⟩ := h.mergeOne hk (by omega)
        have hsum : sum2 (exps ((e2 + 1, b ++ a) :: l2)) = sum2 (exps ((e2, a) :: (e2, b) :: l2)) := sum2_merge e2 (exps l2)
        obtain ⟨l', g1, g2, g3, g4, g5, g6, _⟩ := ih m1 (Near.merge hn) (by rw [hsum]; exact hs) (by simp only [List.length_cons]; omega)
        rw [hsum] at g1 g3 g5 g6
        refine ⟨l', g1, g2, g3, ?_, g5.trans m2, g6.trans m3, fun hx => absurd hx hnl⟩
        rw [g4]
        simp only [flat, List.append_assoc]

theorem strict_sum {l : List Nat} : ∀ {a : Nat}, Strict l → (∀ x ∈ l, a ≤ x) → 2 ^ a * 2 ^ l.length ≤ sum2 l + 2 ^ a := by
  induction l with
  | nil => intro a _ _; simp [sum2]
  | cons e l ih =>
    intro a h ha
    have i := ih (a := e + 1) h.2 (fun x hx => h.1 x hx)
    have hae : 2 ^ a ≤ 2 ^ e := Nat.pow_le_pow_right (by decide) (ha e (List.mem_cons_self ..))
    have hL := Nat.two_pow_pos l.length
    rw [Nat.pow_succ] at i
    simp only [List.length_cons, sum2, Nat.pow_succ]
    have e1 : 2 ^ e * 2 * 2 ^ l.length = 2 ^ e * (2 * 2 ^ l.length) := by rw [Nat.mul_assoc]
    have e2 : 2 ^ a * (2 ^ l.length * 2) = 2 ^ a * (2 * 2 ^ l.length) := by rw [Nat.mul_comm (2 ^ l.length) 2]
    rw [e1] at i
    rw [e2]
    have hw : 0 < 2 * 2 ^ l.length := by omega
    generalize 2 * 2 ^ l.length = w at *
    generalize 2 ^ a = A at *
    generalize 2 ^ e = E at *
    obtain ⟨v, hv⟩ : ∃ v, w = v + 1 := ⟨w - 1, by omega⟩
    subst hv
    rw [Nat.mul_add, Nat.mul_one] at i ⊢
    have := Nat.mul_le_mul_right v hae
    omega

theorem merge_ctr {n : Nat} (h : n < 256) : (BitVec.ofNat 64 n).toNat = n := by
  rw [BitVec.toNat_ofNat, Nat.mod_eq_of_lt (by omega)]

/-- Pushing a chaining value. -/
theorem Stk.push {key : List U32} {fl : Byte} {d : Digest} {l : List Seg} (hk : key.length = 8) (h : Stk key fl d l) (hn : Near (exps l))
    (hs : sum2 (exps l) < 255) (e : Nat) (x cv : Bytes) (hx : x.length = 1024 * 2 ^ e)
    (hcv : cv = (BLAKE3.tree key fl (sum2 (exps l)) x).cv) :
    ∃ l', Stk key fl (d.pushCV cv (BitVec.ofNat 64 (sum2 (exps l)))) ((e, x) :: l') ∧ Strict (exps l') ∧ sum2 (exps l') = sum2 (exps l) ∧
      flat l' = flat l ∧ (d.pushCV cv (BitVec.ofNat 64 (sum2 (exps l)))).chunk = d.chunk ∧ (d.pushCV cv (BitVec.ofNat 64 (sum2 (exps l)))).hs = d.hs ∧
      (Strict (exps l) → l' = l) := by
  have hle : l.length ≤ 9 := by rw [← exps_length]; exact near_length (k := 8) hn (by omega)
  obtain ⟨l', g1, g2, g3, g4, g5, g6, g7⟩ := h.mergeLoop hk 256 hn (by omega) (by omega)
  have hl7 : l'.length ≤ 7 := by
    have := strict_sum (a := 0) g2 (fun _ _ => Nat.zero_le _)
    rw [exps_length, g3] at this
    apply Nat.le_of_not_lt
    intro hlt
    have : 2 ^ 8 ≤ 2 ^ l'.length := Nat.pow_le_pow_right (by decide) hlt
    omega
  have hmer : d.mergeCvStack (BitVec.ofNat 64 (sum2 (exps l))) = d.mergeLoop (popcnt (sum2 (exps l))) 256 := by
    unfold Digest.mergeCvStack; rw [merge_ctr (by omega)]
  generalize d.mergeLoop (popcnt (sum2 (exps l))) 256 = d' at *
  have hclen : cv.length = 32 := by rw [hcv]; exact tree_cv_length key fl hk _ _
  have hoff : (d'.cv_stack_len * 32#8).toNat = 32 * l'.length := by
    rw [g1.len, BitVec.toNat_mul, BitVec.toNat_ofNat]
    simp only [BitVec.toNat_ofNat]
    omega
  have hpush : d.pushCV cv (BitVec.ofNat 64 (sum2 (exps l))) =
      { d' with cv_stack := goCopy d'.cv_stack (32 * l'.length) cv, cv_stack_len := d'.cv_stack_len + 1 } := by
    unfold Digest.pushCV
    rw [hmer]
    dsimp only
    rw [hoff, List.take_of_length_le (by omega)]
  rw [hpush]
  refine ⟨l', ⟨g1.dkey, g1.dfl, ?_, ?_, ?_, ?_⟩, g2, g3, g4, g5, g6, g7⟩
  · show d'.cv_stack_len + 1 = _
    rw [g1.len, List.length_cons, BitVec.ofNat_add]; rfl
  · show (goCopy d'.cv_stack _ _).length = _
    rw [goCopy_length _ _ _ (by rw [g1.total]; omega), g1.total]
  · obtain ⟨rest, hr⟩ := g1.pre
    have hS := stk_length key fl hk l'
    have htot := g1.total
    rw [hr, List.length_append, hS] at htot
    refine ⟨rest.drop 32, ?_⟩
    show goCopy d'.cv_stack _ _ = _
    have : rest = rest.take 32 ++ rest.drop 32 := (List.take_append_drop 32 rest).symm
    rw [hr]
    rw [show stk key fl l' ++ rest = stk key fl l' ++ rest.take 32 ++ rest.drop 32 by rw [List.append_assoc, List.take_append_drop]]
    rw [← hS, goCopy_mid _ _ _ _ (by rw [List.length_take]; omega)]
    rw [stk_cons, g3, ← hcv]
  · intro s hs'
    rcases List.mem_cons.mp hs' with rfl | hs'
    · exact hx
    · exact g1.sized s hs'

/-- The last merges of the tree. -/
theorem finalLoop_eq {key : List U32} {fl : Byte} {d : Digest} (hk : key.length = 8) (hdk : d.key = key) (hdf : d.chunk.flags = fl) :
    ∀ (l : List Seg) (o : Output) (y : Bytes), (∃ rest, d.cv_stack = stk key fl l ++ rest) → Sized l → Strict (exps l) → y ≠ [] →
    (∀ e ∈ exps l, y.length ≤ 1024 * 2 ^ e) →
    ORepr o (BLAKE3.tree key fl (sum2 (exps l)) y) → ORepr (d.finalLoop l.length o) (BLAKE3.tree key fl 0 (flat l ++ y)) := by
  intro l
  induction l with
  | nil => intro o y _ _ _ _ _ h; exact h
  | cons s l ih =>
    intro o y hp hz hst hy hle h
    have hs : s.2.length = 1024 * 2 ^ s.1 := hz s (List.mem_cons_self ..)
    have hyl := hle s.1 (List.mem_cons_self ..)
    have hsp := tree_split key fl (sum2 (exps l)) s.1 s.2 y hs hy (by omega)
    have hsum : sum2 (exps (s :: l)) = sum2 (exps l) + 2 ^ s.1 := Nat.add_comm _ _
    obtain ⟨rest, hr⟩ := hp
    have hS := stk_length key fl hk l
    have c1 := tree_cv_length key fl hk (sum2 (exps l)) s.2
    have hcv := h.cv
    have hblock : goCopy (goCopy (zeros 64) 0 ((d.cv_stack.drop (l.length * 32)).take 32)) 32 o.chainingValue =
        (BLAKE3.tree key fl (sum2 (exps l)) s.2).cv ++ o.chainingValue := by
      rw [hr]
      rw [stk_cons, show l.length * 32 = (stk key fl l).length by omega, List.append_assoc, List.drop_left, List.take_left' c1,
        goCopy_two _ _ 32 64 c1 (by rw [hcv]; exact tree_cv_length _ _ hk _ _) (by decide)]
      exact List.append_nil _
    rw [List.length_cons]
    unfold Digest.finalLoop
    dsimp only
    rw [hblock, hcv, hdk, hdf, hsum]
    have hpr := parent_repr (key := key) (fl := fl) hk (BLAKE3.tree key fl (sum2 (exps l)) s.2).cv (BLAKE3.tree key fl (sum2 (exps l) + 2 ^ s.1) y).cv
      (by rw [List.length_append, c1, tree_cv_length _ _ hk])
    rw [← hsp] at hpr
    have := ih _ (s.2 ++ y) ⟨(BLAKE3.tree key fl (sum2 (exps l)) s.2).cv ++ rest, by rw [hr, stk_cons, List.append_assoc]⟩
      (fun x hx => hz x (List.mem_cons_of_mem _ hx)) hst.2 (by intro e; exact hy (List.append_eq_nil_iff.mp e).2) (by
        intro e he
        have hlt := hst.1 e he
        have : 2 ^ (s.1 + 1) ≤ 2 ^ e := Nat.pow_le_pow_right (by decide) hlt
        rw [Nat.pow_succ] at this
        rw [List.length_append]; omega) hpr
    unfold flat
    rw [List.append_assoc]
    exact this

end Verif.BLAKE3
