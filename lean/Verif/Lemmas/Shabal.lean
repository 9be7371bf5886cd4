import Verif.Model.Shabal
import Verif.Spec.Shabal
import Verif.Lemmas.RadioGatunObj
import Verif.BufferX
/-
Shabal: the block function and the digest object.
-/
namespace Verif.Shabal
open LSH (getD_set' getD_map_range ext_getD)
open Spec.Shabal (State)

/-- Setting distinct places, each from its own old content. -/
theorem foldl_set_at (f : Nat → U32 → U32) : ∀ (is : List Nat), is.Nodup → ∀ (l : List U32), (∀ i ∈ is, i < l.length) →
    (is.foldl (fun l i => l.set i (f i (g l i))) l).length = l.length ∧ ∀ j, g (is.foldl (fun l i => l.set i (f i (g l i))) l) j = if j ∈ is then f j (g l j) else g l j
  | [], _, l, _ => ⟨rfl, fun j => by simp⟩
  | i :: is, hn, l, hl => by
    have hn' := List.nodup_cons.1 hn
    obtain ⟨h1, h2⟩ := foldl_set_at f is hn'.2 (l.set i (f i (g l i))) (fun k hk => by rw [List.length_set]; exact hl k (by simp [hk]))
    rw [List.foldl_cons]
    refine ⟨by rw [h1, List.length_set], fun j => ?_⟩
    rw [h2 j]
    have hi := hl i (by simp)
    by_cases hj : i = j
    · subst hj
      rw [if_neg hn'.1, if_pos (List.mem_cons_self)]
      unfold g
      rw [getD_set', if_pos ⟨rfl, hi⟩]
    · have e : g (l.set i (f i (g l i))) j = g l j := by
        unfold g; rw [getD_set', if_neg (fun c => hj c.1)]
      rw [e]
      by_cases hm : j ∈ is
      · rw [if_pos hm, if_pos (List.mem_cons_of_mem _ hm)]
      · rw [if_neg hm, if_neg]
        intro c
        rcases List.mem_cons.1 c with c | c
        · exact hj c.symm
        · exact hm c

theorem foldl_set_all (f : Nat → U32 → U32) (n : Nat) (is : List Nat) (hn : is.Nodup) (hi : ∀ i, i ∈ is ↔ i < n) (l : List U32) (hl : l.length = n) :
    is.foldl (fun l i => l.set i (f i (g l i))) l = (List.range n).map fun i => f i (g l i) := by
  obtain ⟨h1, h2⟩ := foldl_set_at f is hn l (fun i h => by rw [hl]; exact (hi i).1 h)
  apply ext_getD
  · rw [h1, hl, List.length_map, List.length_range]
  · intro i hlt
    rw [h1, hl] at hlt
    rw [getD_map_range _ _ _ _ hlt]
    have := h2 i
    rw [if_pos ((hi i).2 hlt)] at this
    exact this

theorem loadTab_eq : loadTab = (List.range 16).map fun i => (i, 4 * i, i, 17, 15) := by decide
theorem stepTab_eq : stepTab = (List.range 48).map fun k => (k % 12, (k + 11) % 12, (8 + 48 - k) % 16, (k + 13) % 16, (k + 9) % 16, (k + 6) % 16, k % 16, k % 16) := rfl
theorem addTab_eq : addTab = ((List.range 12).map fun i => 11 - i).map fun a => (a, (a + 24 + 3) % 16, (a + 12 + 3) % 16, (a + 3) % 16) := by decide

theorem loadM_eq (data : Bytes) (off : Nat) : loadM data off = (List.range 16).map fun i => getLE32 data (off + 4 * i) := by
  unfold loadM
  rw [loadTab_eq, List.foldl_map]
  exact foldl_set_all (fun i _ => getLE32 data (off + 4 * i)) 16 (List.range 16) (List.nodup_range) (fun i => List.mem_range) _ (List.length_replicate)

theorem addM_eq (M B : List U32) (hB : B.length = 16) : addM M B = (List.range 16).map fun i => (g B i + g M i).rotateLeft 17 := by
  unfold addM
  rw [loadTab_eq, List.foldl_map]
  rw [foldl_set_all (fun i v => ((v + g M i) <<< 17) ||| ((v + g M i) >>> 15)) 16 (List.range 16) (List.nodup_range) (fun i => List.mem_range) _ hB]
  apply List.map_congr_left
  intro i _
  rw [BitVec.rotateLeft_def]

theorem addC_eq (C A : List U32) (hA : A.length = 12) : addC C A = (List.range 12).map fun i => g A i + g C ((i + 3) % 16) + g C ((i + 12 + 3) % 16) + g C ((i + 24 + 3) % 16) := by
  unfold addC
  rw [addTab_eq, List.foldl_map]
  rw [foldl_set_all (fun a v => v + (g C ((a + 24 + 3) % 16) + g C ((a + 12 + 3) % 16) + g C ((a + 3) % 16))) 12 _ (by decide) ?_ _ hA]
  · apply List.map_congr_left
    intro i _
    generalize g A i = w; generalize g C ((i + 24 + 3) % 16) = x; generalize g C ((i + 12 + 3) % 16) = y; generalize g C ((i + 3) % 16) = z
    ac_rfl
  · intro i
    rw [List.mem_map]
    constructor
    · rintro ⟨a, h, rfl⟩; rw [List.mem_range] at h; omega
    · intro h; exact ⟨11 - i, by rw [List.mem_range]; omega, by omega⟩

def toSpec (c : Core) : State := ⟨c.A, c.B, c.C⟩
structure Wf (c : Core) : Prop where
  a : c.A.length = 12
  b : c.B.length = 16
  c : c.C.length = 16

theorem not_xor' (x y : U32) : ~~~x ^^^ y = x ^^^ ~~~y := by
  apply BitVec.eq_of_getLsbD_eq; intro i hi
  simp [hi]

theorem step_eq (M : List U32) (c : Core) (k : Nat) :
    stepT M c (k % 12, (k + 11) % 12, (8 + 48 - k) % 16, (k + 13) % 16, (k + 9) % 16, (k + 6) % 16, k % 16, k % 16) =
      { (c) with A := (Spec.Shabal.step (fun i => g M i) (toSpec c) k).A, B := (Spec.Shabal.step (fun i => g M i) (toSpec c) k).B } := by
  unfold stepT Spec.Shabal.step toSpec Spec.Shabal.a Spec.Shabal.b Spec.Shabal.c g
  dsimp only
  rw [not_xor', BitVec.rotateLeft_def, BitVec.rotateLeft_def]

theorem steps_eq (M : List U32) (c : Core) (h : Wf c) (n : Nat) :
    let r := ((List.range n).map fun k => (k % 12, (k + 11) % 12, (8 + 48 - k) % 16, (k + 13) % 16, (k + 9) % 16, (k + 6) % 16, k % 16, k % 16)).foldl (stepT M) c
    toSpec r = (List.range n).foldl (Spec.Shabal.step (fun i => g M i)) (toSpec c) ∧ r.W = c.W ∧ Wf r := by
  induction n with
  | zero => exact ⟨rfl, rfl, h⟩
  | succ n ih =>
    dsimp only at ih ⊢
    rw [List.range_succ, List.map_append, List.foldl_append, List.foldl_append]
    generalize ((List.range n).map fun k => (k % 12, (k + 11) % 12, (8 + 48 - k) % 16, (k + 13) % 16, (k + 9) % 16, (k + 6) % 16, k % 16, k % 16)).foldl (stepT M) c = r at *
    obtain ⟨h1, h2, h3⟩ := ih
    rw [← h1]
    rw [List.map_cons, List.map_nil, List.foldl_cons, List.foldl_nil, List.foldl_cons, List.foldl_nil, step_eq]
    refine ⟨rfl, h2, ?_, ?_, h3.c⟩
    · show (r.A.set _ _).length = 12; rw [List.length_set]; exact h3.a
    · show (r.B.set _ _).length = 16; rw [List.length_set]; exact h3.b

theorem g_range (f : Nat → U32) (n i : Nat) (h : i < n) : g ((List.range n).map f) i = f i := getD_map_range _ _ _ _ h

theorem map_mod (l : List U32) (n : Nat) (f : U32 → Nat → U32) : ((List.range n).map fun i => f (l.getD (i % n) 0) i) = (List.range n).map fun i => f (g l i) i := by
  apply List.map_congr_left
  intro i h
  rw [Nat.mod_eq_of_lt (List.mem_range.1 h)]; rfl

/-- Only the first 16 words matter. -/
theorem step_congr (M M' : Nat → U32) (h : ∀ i, i < 16 → M i = M' i) (s : State) (k : Nat) : Spec.Shabal.step M s k = Spec.Shabal.step M' s k := by
  unfold Spec.Shabal.step
  rw [h (k % 16) (Nat.mod_lt _ (by omega))]

theorem block_congr (W : U64) (M M' : Nat → U32) (h : ∀ i, i < 16 → M i = M' i) (s : State) : Spec.Shabal.block W M s = Spec.Shabal.block W M' s := by
  have e : Spec.Shabal.step M = Spec.Shabal.step M' := by funext s k; exact step_congr M M' h s k
  have e1 : ∀ s : State, ((List.range 16).map fun i => Spec.Shabal.b s i + M i) = (List.range 16).map fun i => Spec.Shabal.b s i + M' i :=
    fun s => List.map_congr_left fun i hi => by rw [h i (List.mem_range.1 hi)]
  have e2 : ∀ s : State, ((List.range 16).map fun i => Spec.Shabal.c s i - M i) = (List.range 16).map fun i => Spec.Shabal.c s i - M' i :=
    fun s => List.map_congr_left fun i hi => by rw [h i (List.mem_range.1 hi)]
  unfold Spec.Shabal.block Spec.Shabal.perm
  dsimp only
  rw [e, e1, e2]

theorem coreBlock_eq (data : Bytes) (off : Nat) (c : Core) (h : Wf c) :
    toSpec (coreBlock data off c) = Spec.Shabal.block c.W (fun i => getLE32 data (off + 4 * i)) (toSpec c) ∧ (coreBlock data off c).W = c.W + 1 ∧ Wf (coreBlock data off c) := by
  rw [block_congr c.W _ (fun i => g (loadM data off) i) (fun i hi => by rw [loadM_eq, g_range _ _ _ hi])]
  unfold coreBlock
  rw [stepTab_eq]
  generalize loadM data off = M
  dsimp only
  have hA : ((c.A.set 0 (g c.A 0 ^^^ c.W.setWidth 32)).set 1 (g (c.A.set 0 (g c.A 0 ^^^ c.W.setWidth 32)) 1 ^^^ (c.W >>> 32).setWidth 32)) =
      (List.range 12).map fun i => if i = 0 then g c.A 0 ^^^ c.W.setWidth 32 else if i = 1 then g c.A 1 ^^^ (c.W >>> 32).setWidth 32 else g c.A i := by
    apply ext_getD
    · simp [h.a]
    · intro i hi
      rw [List.length_set, List.length_set, h.a] at hi
      rw [getD_map_range _ _ _ _ hi, getD_set', getD_set', List.length_set, h.a]
      unfold g
      rw [getD_set', h.a]
      by_cases h1 : i = 1
      · subst h1; rw [if_pos ⟨rfl, hi⟩, if_neg (by omega), if_neg (by omega), if_pos rfl]
      · rw [if_neg (fun c => h1 c.1.symm), if_neg h1]
        by_cases h0 : i = 0
        · subst h0; rw [if_pos ⟨rfl, hi⟩, if_pos rfl]
        · rw [if_neg (fun c => h0 c.1.symm), if_neg h0]
  rw [hA, addM_eq M c.B h.b]
  generalize hs : (Core.mk ((List.range 12).map fun i => if i = 0 then g c.A 0 ^^^ c.W.setWidth 32 else if i = 1 then g c.A 1 ^^^ (c.W >>> 32).setWidth 32 else g c.A i)
    ((List.range 16).map fun i => (g c.B i + g M i).rotateLeft 17) c.C (c.W + 1)) = s
  have hw : Wf s := by rw [← hs]; exact ⟨by simp, by simp, h.c⟩
  have hW : s.W = c.W + 1 := by rw [← hs]
  obtain ⟨r1, r2, r3⟩ := steps_eq M s hw 48
  have hsp : toSpec s = (let s : State := { (toSpec c) with B := (List.range 16).map fun i => Spec.Shabal.b (toSpec c) i + g M i }
      let s : State := { s with A := (List.range 12).map fun i => if i = 0 then Spec.Shabal.a s 0 ^^^ c.W.setWidth 32 else if i = 1 then Spec.Shabal.a s 1 ^^^ (c.W >>> 32).setWidth 32 else Spec.Shabal.a s i }
      { s with B := (List.range 16).map fun i => (Spec.Shabal.b s i).rotateLeft 17 }) := by
    rw [← hs]
    unfold toSpec Spec.Shabal.a Spec.Shabal.b
    dsimp only
    rw [State.mk.injEq]
    refine ⟨?_, ?_, rfl⟩
    · apply List.map_congr_left
      intro i hi
      rw [Nat.mod_eq_of_lt (List.mem_range.1 hi)]; rfl
    · apply List.map_congr_left
      intro i hi
      have hi' := List.mem_range.1 hi
      rw [getD_map_range _ _ _ _ (by omega), Nat.mod_mod, Nat.mod_eq_of_lt hi']; rfl
  dsimp only at hsp r1 r2 r3
  generalize ((List.range 48).map fun k => (k % 12, (k + 11) % 12, (8 + 48 - k) % 16, (k + 13) % 16, (k + 9) % 16, (k + 6) % 16, k % 16, k % 16)).foldl (stepT M) s = r at *
  refine ⟨?_, by rw [r2, hW], ⟨by rw [addC_eq _ _ r3.a]; simp, by simp, r3.b⟩⟩
  unfold Spec.Shabal.block Spec.Shabal.perm
  dsimp only
  rw [hsp] at r1
  rw [← r1, addC_eq _ _ r3.a]
  unfold toSpec Spec.Shabal.a Spec.Shabal.c
  dsimp only
  rw [State.mk.injEq]
  refine ⟨?_, ?_, rfl⟩
  · apply List.map_congr_left
    intro i hi
    rw [Nat.mod_eq_of_lt (List.mem_range.1 hi)]; rfl
  · apply List.map_congr_left
    intro i hi
    rw [Nat.mod_eq_of_lt (List.mem_range.1 hi)]; rfl

end Verif.Shabal
