import Verif.Spec.KeyTreeMem
import Verif.Props.C36_KeyTree
/-
C143: the slices the key trees of gost/gost34112012256 return.
-/
namespace Verif.Props
open Verif.KeyTreeMem

namespace KTM
open Spec.KeyTreeMem (StoresDerived)

theorem snoc_get {α} (l : List α) (a : α) (k : Nat) (x : α) (h : (l ++ [a])[k]? = some x) : l[k]? = some x ∨ (k = l.length ∧ x = a) := by
  by_cases hk : k < l.length
  · rw [List.getElem?_append_left hk] at h; exact Or.inl h
  · rw [List.getElem?_append_right (by omega)] at h
    have : k - l.length = 0 := by
      rcases Nat.eq_zero_or_pos (k - l.length) with e | e
      · exact e
      · rw [List.getElem?_eq_none (by simp; omega)] at h; cases h
    rw [this] at h
    exact Or.inr ⟨by omega, (Option.some.inj h).symm⟩
theorem snoc_getD_lt {α} (l : List α) (a d : α) {k : Nat} (h : k < l.length) : (l ++ [a]).getD k d = l.getD k d := by
  rw [List.getD_eq_getElem?_getD, List.getD_eq_getElem?_getD, List.getElem?_append_left h]
theorem snoc_getD_eq {α} (l : List α) (a d : α) : (l ++ [a]).getD l.length d = a := by
  rw [List.getD_eq_getElem?_getD, List.getElem?_concat_length]; rfl
theorem get_lt {α} {l : List α} {k : Nat} {x : α} (h : l[k]? = some x) : k < l.length := (List.getElem?_eq_some_iff.mp h).1

/-- The arrays, the tree's own among them, against the slices of the specification. -/
structure Inv (H : Heap) (key : Nat) (rs : List Nat) (ks : List Bool) (vs : List Bytes) : Prop where
  lk : ks.length = rs.length
  lv : vs.length = rs.length
  kin : key < H.length
  ref : ∀ k r : Nat, rs[k]? = some r → r < H.length ∧ H.getD r [] = vs.getD k []
  own : ∀ k r : Nat, rs[k]? = some r → ks[k]? = some true → r ≠ key ∧ ∀ j : Nat, rs[j]? = some r → j = k

theorem Inv.grow {H key rs ks vs} (h : Inv H key rs ks vs) (x : Bytes) : Inv (H ++ [x]) key rs ks vs :=
  ⟨h.lk, h.lv, by have := h.kin; simp; omega, fun k r hr => by
    obtain ⟨h1, h2⟩ := h.ref k r hr
    exact ⟨by simp; omega, by rw [snoc_getD_lt _ _ _ h1, h2]⟩, h.own⟩
theorem Inv.move {H key rs ks vs} (h : Inv H key rs ks vs) (x : Bytes) : Inv (H ++ [x]) H.length rs ks vs :=
  ⟨h.lk, h.lv, by simp, (h.grow x).ref, fun k r hr hk => ⟨Nat.ne_of_lt (h.ref k r hr).1, (h.own k r hr hk).2⟩⟩
theorem Inv.cached {H key rs ks vs} (h : Inv H key rs ks vs) : Inv H key (rs ++ [key]) (ks ++ [false]) (vs ++ [H.getD key []]) := by
  refine ⟨by simp [h.lk], by simp [h.lv], h.kin, fun k r hr => ?_, fun k r hr hk => ?_⟩
  · rcases snoc_get _ _ _ _ hr with e | ⟨e1, e2⟩
    · obtain ⟨a, b⟩ := h.ref k r e
      exact ⟨a, by rw [snoc_getD_lt _ _ _ (by rw [h.lv]; exact get_lt e), b]⟩
    · subst e2
      rw [e1, ← h.lv, snoc_getD_eq]
      exact ⟨h.kin, rfl⟩
  · rcases snoc_get _ _ _ _ hk with e | ⟨_, e2⟩
    · have hlt := get_lt e
      rw [h.lk] at hlt
      rw [List.getElem?_append_left hlt] at hr
      obtain ⟨a, b⟩ := h.own k r hr e
      refine ⟨a, fun j hj => ?_⟩
      rcases snoc_get _ _ _ _ hj with e' | ⟨_, e2⟩
      · exact b j e'
      · exact absurd e2 a
    · cases e2
theorem Inv.derive {H key rs ks vs} (h : Inv H key rs ks vs) (x : Bytes) : Inv (H ++ [x]) key (rs ++ [H.length]) (ks ++ [true]) (vs ++ [x]) := by
  have hg := h.grow x
  refine ⟨by simp [h.lk], by simp [h.lv], hg.kin, fun k r hr => ?_, fun k r hr hk => ?_⟩
  · rcases snoc_get _ _ _ _ hr with e | ⟨e1, e2⟩
    · obtain ⟨a, b⟩ := hg.ref k r e
      exact ⟨a, by rw [snoc_getD_lt vs _ _ (by rw [h.lv]; exact get_lt e), b]⟩
    · subst e2
      rw [e1, ← h.lv, snoc_getD_eq, snoc_getD_eq]
      exact ⟨by simp, rfl⟩
  · rcases snoc_get _ _ _ _ hr with e | ⟨e1, e2⟩
    · have hlt := get_lt e
      rw [List.getElem?_append_left (by rw [h.lk]; exact hlt)] at hk
      obtain ⟨a, b⟩ := h.own k r e hk
      refine ⟨a, fun j hj => ?_⟩
      rcases snoc_get _ _ _ _ hj with e' | ⟨_, e2⟩
      · exact b j e'
      · have := (h.ref k r e).1; omega
    · subst e2
      refine ⟨(Nat.ne_of_lt h.kin).symm, fun j hj => ?_⟩
      rcases snoc_get _ _ _ _ hj with e' | ⟨e', _⟩
      · have := (h.ref j _ e').1; omega
      · omega
theorem getD_set_ne {α} (l : List α) {i j : Nat} (a d : α) (h : i ≠ j) : (l.set i a).getD j d = l.getD j d := by
  rw [List.getD_eq_getElem?_getD, List.getD_eq_getElem?_getD, List.getElem?_set_ne h]
theorem getD_set_eq {α} (l : List α) {i : Nat} (a d : α) (h : i < l.length) : (l.set i a).getD i d = a := by
  rw [List.getD_eq_getElem?_getD, List.getElem?_set_self h]; rfl
theorem Inv.store {H key rs ks vs} (h : Inv H key rs ks vs) {k r : Nat} (hr : rs[k]? = some r) (hk : ks[k]? = some true) (b : Bytes) :
    Inv (H.set r b) key rs ks (vs.set k b) ∧ (H.set r b).getD key [] = H.getD key [] := by
  obtain ⟨o1, o2⟩ := h.own k r hr hk
  refine ⟨⟨h.lk, by rw [List.length_set, h.lv], by rw [List.length_set]; exact h.kin, fun j q hq => ?_, h.own⟩, getD_set_ne _ _ _ o1⟩
  rw [List.length_set]
  refine ⟨(h.ref j q hq).1, ?_⟩
  by_cases hj : j = k
  · subst hj
    rw [hr] at hq
    cases hq
    rw [getD_set_eq _ _ _ (h.ref j r hr).1, getD_set_eq _ _ _ (by rw [h.lv]; exact get_lt hr)]
  · rw [getD_set_ne _ _ _ (fun e => hj (o2 j (by rw [e]; exact hq))), getD_set_ne _ _ _ (fun e => hj e.symm), (h.ref j q hq).2]

/-- What `DeriveCached` of a tree does, in general terms: the tree's own array again, or a new one that becomes the tree's own. -/
structure Cell {T ι : Type} (dc : Heap → T → ι → Option (Heap × T × Nat × Bool)) (keyOf : ι → Bytes) (valid : ι → Bool) (keyRef : T → Nat)
    (Coh : Bytes → T → Prop) : Prop where
  bad : ∀ H t i, valid i = false → dc H t i = none
  ok : ∀ H t i, valid i = true → Coh (H.getD (keyRef t) []) t →
    (dc H t i = some (H, t, keyRef t, true) ∧ H.getD (keyRef t) [] = keyOf i) ∨
    ∃ t', dc H t i = some (H ++ [keyOf i], t', H.length, false) ∧ keyRef t' = H.length ∧ Coh (keyOf i) t'
  len : ∀ i, (keyOf i).length = 32

theorem cell_run {T ι : Type} {dc : Heap → T → ι → Option (Heap × T × Nat × Bool)} {keyOf : ι → Bytes} {valid : ι → Bool} {keyRef : T → Nat}
    {Coh : Bytes → T → Prop} (hc : Cell dc keyOf valid keyRef Coh) (as : List (Act ι)) : ∀ H t rs ks vs, Inv H (keyRef t) rs ks vs →
    Coh (H.getD (keyRef t) []) t → StoresDerived ks as → run dc H t rs as = Spec.KeyTreeMem.run keyOf valid vs as := by
  induction as with
  | nil => intro H t rs ks vs _ _ _; rfl
  | cons a as ih =>
    intro H t rs ks vs h ho hs
    cases a with
    | cached i =>
      rw [run, Spec.KeyTreeMem.run]
      cases hv : valid i with
      | false => rw [hc.bad H t i hv]; rfl
      | true =>
        rw [if_pos rfl]
        rcases hc.ok H t i hv ho with ⟨e1, e2⟩ | ⟨t', e1, e2, e3⟩
        · rw [e1]
          dsimp only
          have hi := h.cached
          rw [e2] at hi ⊢
          rw [ih H t _ _ _ hi ho hs]
        · rw [e1]
          dsimp only
          have hi := (h.move (keyOf i)).cached
          rw [snoc_getD_eq] at hi ⊢
          rw [← e2] at hi
          rw [← e2, ih _ t' _ _ _ hi (by rw [e2, snoc_getD_eq]; exact e3) hs]
    | derive i =>
      rw [run, Spec.KeyTreeMem.run]
      cases hv : valid i with
      | false => rw [hc.bad H t i hv]; rfl
      | true =>
        rw [if_pos rfl]
        rcases hc.ok H t i hv ho with ⟨e1, e2⟩ | ⟨t', e1, e2, e3⟩
        · rw [e1]
          dsimp only
          rw [e2, goCopy32 (hc.len i)]
          rw [ih _ t _ _ _ (h.derive (keyOf i)) (by rw [snoc_getD_lt _ _ _ h.kin]; exact ho) hs]
        · rw [e1]
          dsimp only
          rw [snoc_getD_eq, goCopy32 (hc.len i)]
          have hm := h.move (keyOf i)
          rw [ih _ t' _ _ _ (by rw [e2]; exact hm.derive (keyOf i)) (by rw [e2, snoc_getD_lt _ _ _ hm.kin, snoc_getD_eq]; exact e3) hs]
    | store k pos v =>
      obtain ⟨h1, h2⟩ := hs
      have hlt : k < rs.length := by rw [← h.lk]; exact get_lt h1
      have hr : rs[k]? = some rs[k] := List.getElem?_eq_getElem hlt
      rw [run, Spec.KeyTreeMem.run, hr]
      dsimp only
      obtain ⟨i1, i2⟩ := h.store hr h1 ((H.getD rs[k] []).set pos v)
      rw [(h.ref k _ hr).2] at i1 i2 ⊢
      rw [ih _ t _ _ _ i1 (by rw [i2]; exact ho) h2]
    | load k =>
      rw [run, Spec.KeyTreeMem.run, ih H t rs ks vs h ho hs]
      cases hr : rs[k]? with
      | none =>
        have : vs.length ≤ k := by rw [h.lv]; exact List.getElem?_eq_none_iff.mp hr
        dsimp only
        rw [List.getD_eq_getElem?_getD, List.getElem?_eq_none this]; rfl
      | some r => dsimp only; rw [(h.ref k r hr).2]

/-- The key of a five-byte index. -/
abbrev eKey (root : Bytes) (is : Bytes) : Bytes := Spec.KeyTree.esp root (at8 is 0) ((is.drop 1).take 2) (is.drop 3)

theorem esp_cell (root : Bytes) (hr : root.length < 2 ^ 60) : Cell ESPTree.deriveCached (eKey root) (fun is => decide (is.length = 5)) ESPTree.key
    (fun b t => t.keyRoot = root ∧ t.isPrev.length = 5 ∧ b = eKey root t.isPrev) := by
  refine ⟨fun H t is hv => ?_, fun H t is hv ho => ?_, fun is => kdf_length _ _ _⟩
  · unfold ESPTree.deriveCached
    rw [if_pos (of_decide_eq_false hv)]
  · have hi := of_decide_eq_true hv
    obtain ⟨h1, h2, h3⟩ := ho
    unfold ESPTree.deriveCached
    rw [if_neg (by omega)]
    by_cases hc : t.isPrev = is
    · rw [if_pos hc]
      exact Or.inl ⟨rfl, by rw [h3, hc]⟩
    · rw [if_neg hc]
      dsimp only
      rw [h1, esp_miss hr hi]
      refine Or.inr ⟨_, rfl, rfl, rfl, ?_, ?_⟩
      · show (goCopy t.isPrev 0 is).length = 5
        rw [goCopy_length _ _ _ (Nat.zero_le _), h2]
      · show eKey root is = eKey root (goCopy t.isPrev 0 is)
        unfold goCopy
        rw [List.take_zero, List.nil_append, h2, List.take_of_length_le (by omega), List.drop_of_length_le (by omega), List.append_nil]

theorem tls_cell (P : KeyTree.Params) (root : Bytes) (hr : root.length < 2 ^ 60) : Cell TLSTree.deriveCached (Spec.KeyTree.tls P.p0 P.p1 P.p2 root) (fun _ => true)
    TLSTree.key (fun b t => t.keyRoot = root ∧ t.params = P ∧ b = Spec.KeyTree.tls P.p0 P.p1 P.p2 root t.seqNumPrev) := by
  refine ⟨fun H t n hv => (by cases hv), fun H t n _ ho => ?_, fun n => kdf_length _ _ _⟩
  obtain ⟨h1, h2, h3⟩ := ho
  subst h2
  unfold TLSTree.deriveCached
  by_cases hc : n > 0 ∧ n &&& t.params.p0 = t.seqNumPrev &&& t.params.p0 ∧ n &&& t.params.p1 = t.seqNumPrev &&& t.params.p1 ∧
      n &&& t.params.p2 = t.seqNumPrev &&& t.params.p2
  · rw [if_pos hc]
    refine Or.inl ⟨rfl, ?_⟩
    rw [h3]
    unfold Spec.KeyTree.tls
    rw [hc.2.1, hc.2.2.1, hc.2.2.2]
  · rw [if_neg hc]
    have e : KeyTree.kdf (KeyTree.kdf (KeyTree.kdf root (ascii "level1") (be64 (n &&& t.params.p0))) (ascii "level2") (be64 (n &&& t.params.p1)))
        (ascii "level3") (be64 (n &&& t.params.p2)) = Spec.KeyTree.tls t.params.p0 t.params.p1 t.params.p2 root n := by
      have hb : ∀ w, (be64 w).length < 64 := by intro w; rw [be64_length]; decide
      have hk : ∀ a b c, (Spec.KeyTree.kdf a b c).length < 2 ^ 60 := by intro a b c; rw [kdf_length]; decide
      rw [kdf_eq hr (by decide) (hb _), kdf_eq (hk _ _ _) (by decide) (hb _), kdf_eq (hk _ _ _) (by decide) (hb _)]
      rfl
    dsimp only
    rw [h1, e]
    exact Or.inr ⟨_, rfl, rfl, rfl, rfl, rfl⟩

end KTM
open KTM
open Spec.KeyTreeMem (StoresDerived)

/-- ESPTree: in every history in which the caller stores only into slices it got from `Derive`, every call returns the key of its index and
every slice keeps what the caller has in it.  Missing for the full claim: stores into slices from `DeriveCached`. -/
theorem C143_esp_partial (root : Bytes) (hr : root.length < 2 ^ 60) (as : List (Act Bytes)) (hs : StoresDerived [] as) :
    ∃ H t, newESPTree root = some (H, t) ∧ run ESPTree.deriveCached H t [] as =
      Spec.KeyTreeMem.run (fun is => Spec.KeyTree.esp root (at8 is 0) ((is.drop 1).take 2) (is.drop 3)) (fun is => decide (is.length = 5)) [] as := by
  refine ⟨[zeros 32, eKey root (zeros 5)], { keyRoot := root, isPrev := zeros 5, key := 1 }, ?_, ?_⟩
  · unfold newESPTree ESPTree.deriveCached
    dsimp only
    rw [if_neg (by decide), if_neg (by decide), esp_miss hr (by decide)]
    rfl
  · exact cell_run (esp_cell root hr) as _ _ [] [] [] ⟨rfl, rfl, by show 1 < 2; decide, fun k r h => (by cases h), fun k r h => (by cases h)⟩
      ⟨rfl, rfl, rfl⟩ hs

/-- TLSTree likewise, from a first request of number 0 (for other first requests see C36). -/
theorem C143_tls_partial (P : KeyTree.Params) (root : Bytes) (hr : root.length < 2 ^ 60) (as : List (Act U64)) (hs : StoresDerived [] (.cached 0 :: as)) :
    run TLSTree.deriveCached (newTLSTree P root).1 (newTLSTree P root).2 [] (.cached 0 :: as) =
      Spec.KeyTreeMem.run (Spec.KeyTree.tls P.p0 P.p1 P.p2 root) (fun _ => true) [] (.cached 0 :: as) := by
  have hd : TLSTree.deriveCached [zeros 32] (newTLSTree P root).2 0 =
      some ([zeros 32] ++ [Spec.KeyTree.tls P.p0 P.p1 P.p2 root 0], { params := P, keyRoot := root, seqNumPrev := 0, key := 1 }, 1, false) := by
    rcases (tls_cell P root hr).ok [zeros 32, Spec.KeyTree.tls P.p0 P.p1 P.p2 root 0] { params := P, keyRoot := root, seqNumPrev := 0, key := 1 } 0 rfl
      ⟨rfl, rfl, rfl⟩ with ⟨e, _⟩ | ⟨t', e, _, _⟩
    · unfold TLSTree.deriveCached at e
      rw [if_neg (fun h => absurd h.1 (by decide))] at e
      cases e
    · unfold TLSTree.deriveCached at e ⊢
      rw [if_neg (fun h => absurd h.1 (by decide))] at e ⊢
      have e := Option.some.inj e
      have e := congrArg Prod.fst e
      dsimp only at e
      have e := List.append_cancel_left e
      unfold newTLSTree
      dsimp only
      rw [e]
      rfl
  rw [run, Spec.KeyTreeMem.run, if_pos rfl]
  show (match TLSTree.deriveCached [zeros 32] (newTLSTree P root).2 0 with
    | none => [Ans.panicked]
    | some (H, t, r, _) => .bytes (H.getD r []) :: run TLSTree.deriveCached H t ([] ++ [r]) as) = _
  rw [hd]
  dsimp only
  have hi : Inv [zeros 32, Spec.KeyTree.tls P.p0 P.p1 P.p2 root 0] 1 [] [] [] :=
    ⟨rfl, rfl, by show 1 < 2; decide, fun k r h => (by cases h), fun k r h => (by cases h)⟩
  refine congrArg (Ans.bytes (Spec.KeyTree.tls P.p0 P.p1 P.p2 root 0) :: ·) ?_
  exact cell_run (tls_cell P root hr) as _ { params := P, keyRoot := root, seqNumPrev := 0, key := 1 } _ _ _ hi.cached ⟨rfl, rfl, rfl⟩ hs

/-- ESPTree: after a store into the slice `DeriveCached` returned, the next request of the same index is answered with the changed bytes,
by `DeriveCached` and by `Derive`, for every root key, index, position and byte. -/
theorem C143_esp_stored (root : Bytes) (hr : root.length < 2 ^ 60) (is : Bytes) (hi : is.length = 5) (hz : is ≠ zeros 5) (pos : Nat) (v : Byte) :
    ∃ H t, newESPTree root = some (H, t) ∧ run ESPTree.deriveCached H t [] [.cached is, .store 0 pos v, .cached is, .derive is] =
      [.bytes (eKey root is), .done, .bytes ((eKey root is).set pos v), .bytes ((eKey root is).set pos v)] := by
  refine ⟨[zeros 32, eKey root (zeros 5)], { keyRoot := root, isPrev := zeros 5, key := 1 }, ?_, ?_⟩
  · unfold newESPTree ESPTree.deriveCached
    dsimp only
    rw [if_neg (by decide), if_neg (by decide), esp_miss hr (by decide)]
    rfl
  · have h1 : ESPTree.deriveCached [zeros 32, eKey root (zeros 5)] { keyRoot := root, isPrev := zeros 5, key := 1 } is =
        some ([zeros 32, eKey root (zeros 5), eKey root is], { keyRoot := root, isPrev := is, key := 2 }, 2, false) := by
      unfold ESPTree.deriveCached
      rw [if_neg (by omega), if_neg (fun e => hz e.symm)]
      dsimp only
      rw [esp_miss hr hi]
      have : goCopy (zeros 5) 0 is = is := by
        unfold goCopy
        rw [List.take_zero, List.nil_append, List.take_of_length_le (by simp; omega), List.drop_of_length_le (by simp; omega), List.append_nil]
      rw [this]
      rfl
    have h2 : ∀ H, ESPTree.deriveCached H { keyRoot := root, isPrev := is, key := 2 } is = some (H, { keyRoot := root, isPrev := is, key := 2 }, 2, true) := by
      intro H
      unfold ESPTree.deriveCached
      rw [if_neg (by omega), if_pos rfl]
    have hl : ((eKey root is).set pos v).length = 32 := by rw [List.length_set]; exact kdf_length _ _ _
    rw [run, h1]
    dsimp only
    rw [run, run, List.nil_append]
    dsimp only [List.getElem?_cons_zero, List.getD_cons_succ, List.getD_cons_zero, List.set_cons_succ, List.set_cons_zero]
    rw [h2]
    dsimp only
    rw [run, h2]
    dsimp only
    rw [show ∀ x y z : Bytes, [x, y, z].getD 2 [] = z from fun _ _ _ => rfl, show ∀ x y z : Bytes, [x, y, z].getD 2 [] = z from fun _ _ _ => rfl]
    rw [goCopy32 hl, run]

/-- So the claim is false of ESPTree, for every root key. -/
theorem C143_esp_violated (root : Bytes) (hr : root.length < 2 ^ 60) : ∃ H t as, newESPTree root = some (H, t) ∧ run ESPTree.deriveCached H t [] as ≠
    Spec.KeyTreeMem.run (fun is => Spec.KeyTree.esp root (at8 is 0) ((is.drop 1).take 2) (is.drop 3)) (fun is => decide (is.length = 5)) [] as := by
  obtain ⟨H, t, h1, h2⟩ := C143_esp_stored root hr [0#8, 0#8, 0#8, 0#8, 1#8] rfl (by decide) 0 (at8 (eKey root [0#8, 0#8, 0#8, 0#8, 1#8]) 0 + 1)
  refine ⟨H, t, [.cached [0#8, 0#8, 0#8, 0#8, 1#8], .store 0 0 (at8 (eKey root [0#8, 0#8, 0#8, 0#8, 1#8]) 0 + 1),
    .cached [0#8, 0#8, 0#8, 0#8, 1#8], .derive [0#8, 0#8, 0#8, 0#8, 1#8]], h1, ?_⟩
  rw [h2]
  intro h
  simp only [Spec.KeyTreeMem.run, List.length_cons, List.length_nil, decide_true, if_true, List.cons.injEq, Ans.bytes.injEq] at h
  have hl : (eKey root [0#8, 0#8, 0#8, 0#8, 1#8]).length = 32 := kdf_length _ _ _
  have h3 := congrArg (fun b => at8 b 0) h.2.2.1
  rw [at8_set, if_pos ⟨rfl, by omega⟩] at h3
  have : ∀ x : Byte, x + 1 ≠ x := by decide
  exact this _ h3

/-- The hypotheses are met by a history with stores. -/
example : StoresDerived [] ([.cached [0#8, 0#8, 0#8, 0#8, 1#8], .derive [0#8, 0#8, 0#8, 0#8, 1#8], .store 1 3 7#8, .load 1,
    .cached [0#8, 0#8, 0#8, 0#8, 1#8]] : List (Act Bytes)) := ⟨rfl, trivial⟩

end Verif.Props
