import Verif.Model.DeepCopy
/-
C54: deepcopy.Copy.
-/
namespace Verif.Props
open Verif.GoValue Verif.DeepCopy

/-- All locations reachable from a value are at or above `b`; the value is closed in the heap. -/
inductive Fresh (b : Nat) (h : Heap) : Val → Prop
  | scalar {n} : Fresh b h (.scalar n)
  | zero : Fresh b h .zero
  | ptrNil : Fresh b h (.ptr none)
  | ptr {a w} (ha : b ≤ a) (hc : h[a]? = some (.one w)) (ht : Fresh b h w) : Fresh b h (.ptr (some a))
  | ifaceNil : Fresh b h (.iface none)
  | iface {w} (ht : Fresh b h w) : Fresh b h (.iface (some w))
  | struct {fs} (ht : ∀ x w, (x, w) ∈ fs → Fresh b h w) : Fresh b h (.struct fs)
  | sliceNil : Fresh b h (.slice none)
  | slice {a off len cap xs} (ha : b ≤ a) (hc : h[a]? = some (.arr xs))
      (ht : ∀ w ∈ xs, Fresh b h w) : Fresh b h (.slice (some (a, off, len, cap)))
  | mapNil : Fresh b h (.map none)
  | map {a es} (ha : b ≤ a) (hc : h[a]? = some (.tbl es))
      (ht : ∀ k w, (k, w) ∈ es → Fresh b h w) : Fresh b h (.map (some a))
  | array {xs} (hn : ∀ w ∈ xs, Fresh b h w) : Fresh b h (.array xs)

theorem getElem?_ext {h : Heap} {a : Nat} {c : Cell} (e : Heap) (hc : h[a]? = some c) : (h ++ e)[a]? = some c := by
  rw [List.getElem?_append_left]
  · exact hc
  · exact (List.getElem?_eq_some_iff.1 hc).1

theorem Fresh.mono {b b' : Nat} {h : Heap} {v : Val} (hf : Fresh b h v) (hb : b' ≤ b) (e : Heap) : Fresh b' (h ++ e) v := by
  induction hf with
  | scalar => exact .scalar
  | zero => exact .zero
  | ptrNil => exact .ptrNil
  | ptr ha hc _ ih => exact .ptr (Nat.le_trans hb ha) (getElem?_ext e hc) ih
  | ifaceNil => exact .ifaceNil
  | iface _ ih => exact .iface ih
  | struct _ ih => exact .struct ih
  | sliceNil => exact .sliceNil
  | slice ha hc _ ih => exact .slice (Nat.le_trans hb ha) (getElem?_ext e hc) ih
  | mapNil => exact .mapNil
  | map ha hc _ ih => exact .map (Nat.le_trans hb ha) (getElem?_ext e hc) ih
  | array _ ih => exact .array ih

theorem Fresh.reach {b : Nat} {h : Heap} {v : Val} (hf : Fresh b h v) : ∀ a, Reach h v a → b ≤ a := by
  induction hf with
  | scalar => intro a hr; cases hr
  | zero => intro a hr; cases hr
  | ptrNil => intro a hr; cases hr
  | ptr ha hc _ ih =>
    intro a hr
    cases hr with
    | ptr => exact ha
    | ptrIn hc' hr => rw [hc] at hc'; cases hc'; exact ih a hr
  | ifaceNil => intro a hr; cases hr
  | iface _ ih => intro a hr; cases hr with | iface hr => exact ih a hr
  | struct _ ih => intro a hr; cases hr with | struct hm hr => exact ih _ _ hm a hr
  | sliceNil => intro a hr; cases hr
  | slice ha hc _ ih =>
    intro a hr
    cases hr with
    | slice => exact ha
    | sliceIn hc' hm hr => rw [hc] at hc'; cases hc'; exact ih _ hm a hr
  | mapNil => intro a hr; cases hr
  | map ha hc _ ih =>
    intro a hr
    cases hr with
    | map => exact ha
    | mapIn hc' hm hr => rw [hc] at hc'; cases hc'; exact ih _ _ hm a hr
  | array _ ih => intro a hr; cases hr with | array hm hr => exact ih _ hm a hr

theorem _root_.Verif.GoValue.Same.mono {h h' : Heap} {v v' : Val} (hs : Same h h' v v') (e e' : Heap) : Same (h ++ e) (h' ++ e') v v' := by
  induction hs with
  | scalar => exact .scalar
  | zero => exact .zero
  | ptrNil => exact .ptrNil
  | ptr hc hc' _ ih => exact .ptr (getElem?_ext e hc) (getElem?_ext e' hc') ih
  | ifaceNil => exact .ifaceNil
  | iface _ ih => exact .iface ih
  | struct hf _ ih => exact .struct hf ih
  | sliceNil => exact .sliceNil
  | slice hc hc' hl hl' _ ih => exact .slice (getElem?_ext e hc) (getElem?_ext e' hc') hl hl' ih
  | mapNil => exact .mapNil
  | map hc hc' hk _ ih => exact .map (getElem?_ext e hc) (getElem?_ext e' hc') hk ih
  | array hl _ ih => exact .array hl ih

theorem _root_.Verif.GoValue.NoRef.same {v : Val} (hn : NoRef v) (h h' : Heap) : Same h h' v v := by
  induction hn with
  | scalar => exact .scalar
  | zero => exact .zero
  | ptrNil => exact .ptrNil
  | ifaceNil => exact .ifaceNil
  | iface _ ih => exact .iface ih
  | struct _ ih =>
    refine .struct rfl ?_
    intro i w w' h1 h2
    rw [h1] at h2
    cases h2
    exact ih _ _ (List.mem_of_getElem? h1)
  | sliceNil => exact .sliceNil
  | mapNil => exact .mapNil
  | array _ ih =>
    refine .array rfl ?_
    intro i w w' h1 h2
    rw [h1] at h2
    cases h2
    exact ih _ (List.mem_of_getElem? h1)

theorem _root_.Verif.GoValue.NoRef.fresh {v : Val} (hn : NoRef v) (b : Nat) (h : Heap) : Fresh b h v := by
  induction hn with
  | scalar => exact .scalar
  | zero => exact .zero
  | ptrNil => exact .ptrNil
  | ifaceNil => exact .ifaceNil
  | iface _ ih => exact .iface ih
  | struct _ ih => exact .struct ih
  | sliceNil => exact .sliceNil
  | mapNil => exact .mapNil
  | array _ ih => exact .array ih

/-- The copy of `v` (from heap `h`, made in a heap `h ++ e`) with fuel `N` or more. -/
def Copies (h : Heap) (N : Nat) (v : Val) : Prop :=
  ∀ e, ∃ e' v', (∀ n, N ≤ n → copyRec n (h ++ e) v = some (h ++ e ++ e', v')) ∧
    Same h (h ++ e ++ e') v v' ∧ Fresh (h ++ e).length (h ++ e ++ e') v'

theorem Copies.mono {h N N' v} (hc : Copies h N v) (hn : N ≤ N') : Copies h N' v := by
  intro e
  obtain ⟨e', v', h1, h2⟩ := hc e
  exact ⟨e', v', fun n hN => h1 n (Nat.le_trans hn hN), h2⟩

theorem copies_all {h : Heap} (l : List Val) (hl : ∀ v ∈ l, ∃ N, Copies h N v) : ∃ N, ∀ v ∈ l, Copies h N v := by
  induction l with
  | nil => exact ⟨0, by simp⟩
  | cons v l ih =>
    obtain ⟨N, hN⟩ := ih fun w hw => hl w (List.mem_cons_of_mem _ hw)
    obtain ⟨M, hM⟩ := hl v List.mem_cons_self
    refine ⟨max N M, ?_⟩
    intro w hw
    rcases List.mem_cons.1 hw with rfl | hw
    · exact hM.mono (Nat.le_max_right _ _)
    · exact (hN w hw).mono (Nat.le_max_left _ _)

theorem copyList_ok {h : Heap} {N : Nat} (l : List Val) (hl : ∀ v ∈ l, Copies h N v) (e : Heap) :
    ∃ e' ws, (∀ n, N ≤ n → copyList (copyRec n) (h ++ e) l = some (h ++ e ++ e', ws)) ∧
      ws.length = l.length ∧
      (∀ (i : Nat) (w w' : Val), l[i]? = some w → ws[i]? = some w' → Same h (h ++ e ++ e') w w') ∧
      ∀ w ∈ ws, Fresh (h ++ e).length (h ++ e ++ e') w := by
  induction l generalizing e with
  | nil => exact ⟨[], [], fun n _ => by simp [copyList], rfl, by simp, by simp⟩
  | cons v l ih =>
    obtain ⟨e1, w, h1, h2, h3⟩ := hl v List.mem_cons_self e
    obtain ⟨e2, ws, i1, i2, i3, i4⟩ := ih (fun x hx => hl x (List.mem_cons_of_mem _ hx)) (e ++ e1)
    refine ⟨e1 ++ e2, w :: ws, ?_, by simp [i2], ?_, ?_⟩
    · intro n hn
      have i1 := i1 n hn
      rw [← List.append_assoc] at i1
      rw [copyList, h1 n hn]
      simp only [Option.bind_eq_bind, Option.bind_some]
      rw [i1]
      simp only [Option.bind_some, List.append_assoc]
    · intro i x x' hx hx'
      cases i with
      | zero =>
        simp only [List.getElem?_cons_zero, Option.some.injEq] at hx hx'
        subst hx hx'
        have := h2.mono [] e2
        simpa only [List.append_nil, List.append_assoc] using this
      | succ i =>
        simp only [List.getElem?_cons_succ] at hx hx'
        have := i3 i x x' hx hx'
        simpa only [List.append_assoc] using this
    · intro x hx
      rcases List.mem_cons.1 hx with rfl | hx
      · have := h3.mono (Nat.le_refl _) e2
        simpa only [List.append_assoc] using this
      · have := (i4 x hx).mono (b' := (h ++ e).length) (by simp only [List.length_append]; omega) []
        simpa only [List.append_nil, List.append_assoc] using this

theorem copyFields_ok {h : Heap} {N : Nat} (l : List (Bool × Val)) (hl : ∀ v, (true, v) ∈ l → Copies h N v) (e : Heap) :
    ∃ e' ws, (∀ n, N ≤ n → copyFields (copyRec n) (h ++ e) l = some (h ++ e ++ e', ws)) ∧
      ws.map Prod.fst = l.map Prod.fst ∧
      (∀ (i : Nat) (w w' : Val), l[i]? = some (true, w) → ws[i]? = some (true, w') → Same h (h ++ e ++ e') w w') ∧
      ∀ x w, (x, w) ∈ ws → Fresh (h ++ e).length (h ++ e ++ e') w := by
  induction l generalizing e with
  | nil => exact ⟨[], [], fun n _ => by simp [copyFields], rfl, by simp, by simp⟩
  | cons p l ih =>
    obtain ⟨x, v⟩ := p
    cases x with
    | false =>
      obtain ⟨e2, ws, i1, i2, i3, i4⟩ := ih (fun x hx => hl x (List.mem_cons_of_mem _ hx)) e
      refine ⟨e2, (false, .zero) :: ws, ?_, by simp [i2], ?_, ?_⟩
      · intro n hn
        simp only [copyFields, Option.bind_eq_bind, Option.bind_some, i1 n hn]
      · intro i x x' hx hx'
        cases i with
        | zero => simp at hx
        | succ i => exact i3 i x x' hx hx'
      · intro x w hx
        rcases List.mem_cons.1 hx with hx | hx
        · cases hx; exact .zero
        · exact i4 x w hx
    | true =>
      obtain ⟨e1, w, h1, h2, h3⟩ := hl v List.mem_cons_self e
      obtain ⟨e2, ws, i1, i2, i3, i4⟩ := ih (fun x hx => hl x (List.mem_cons_of_mem _ hx)) (e ++ e1)
      refine ⟨e1 ++ e2, (true, w) :: ws, ?_, by simp [i2], ?_, ?_⟩
      · intro n hn
        have i1 := i1 n hn
        rw [← List.append_assoc] at i1
        rw [copyFields, h1 n hn]
        simp only [Option.bind_eq_bind, Option.bind_some]
        rw [i1]
        simp only [Option.bind_some, List.append_assoc]
      · intro i x x' hx hx'
        cases i with
        | zero =>
          simp only [List.getElem?_cons_zero, Option.some.injEq, Prod.mk.injEq, true_and] at hx hx'
          subst hx hx'
          have := h2.mono [] e2
          simpa only [List.append_nil, List.append_assoc] using this
        | succ i =>
          simp only [List.getElem?_cons_succ] at hx hx'
          have := i3 i x x' hx hx'
          simpa only [List.append_assoc] using this
      · intro x y hx
        rcases List.mem_cons.1 hx with hx | hx
        · cases hx
          have := h3.mono (Nat.le_refl _) e2
          simpa only [List.append_assoc] using this
        · have := (i4 x y hx).mono (b' := (h ++ e).length) (by simp only [List.length_append]; omega) []
          simpa only [List.append_nil, List.append_assoc] using this

theorem setIndex_new (acc : List (Key × Val)) (k : Key) (v : Val) (hk : k ∉ acc.map Prod.fst) :
    setIndex acc k v = acc ++ [(k, v)] := by
  induction acc with
  | nil => rfl
  | cons p acc ih =>
    obtain ⟨k', v'⟩ := p
    simp only [List.map_cons, List.mem_cons, not_or] at hk
    rw [setIndex, if_neg (fun h => hk.1 h.symm), ih hk.2, List.cons_append]

theorem copyKey_eq {k : Key} (hk : ∀ fs, k = .struct fs → ∀ f ∈ fs, f.1 = true) : copyKey k = k := by
  cases k with
  | scalar n => rfl
  | struct fs =>
    simp only [copyKey, Key.struct.injEq]
    rw [List.map_congr_left (g := id), List.map_id]
    intro f hf
    rw [if_pos (hk fs rfl f hf)]
    rfl

theorem copyEntries_ok {h : Heap} {N : Nat} (l : List (Key × Val)) (hd : (l.map Prod.fst).Nodup)
    (hk : ∀ k ∈ l.map Prod.fst, copyKey k = k)
    (hl : ∀ k v, (k, v) ∈ l → Copies h N v) (e : Heap) (acc : List (Key × Val))
    (ha : ∀ k ∈ l.map Prod.fst, k ∉ acc.map Prod.fst) :
    ∃ e' ws, (∀ n, N ≤ n → copyEntries (copyRec n) (h ++ e) l acc = some (h ++ e ++ e', acc ++ ws)) ∧
      ws.map Prod.fst = l.map Prod.fst ∧
      (∀ (i : Nat) (k : Key) (w w' : Val), l[i]? = some (k, w) → ws[i]? = some (k, w') → Same h (h ++ e ++ e') w w') ∧
      ∀ x w, (x, w) ∈ ws → Fresh (h ++ e).length (h ++ e ++ e') w := by
  induction l generalizing e acc with
  | nil => exact ⟨[], [], fun n _ => by simp [copyEntries], rfl, by simp, by simp⟩
  | cons p l ih =>
    obtain ⟨k, v⟩ := p
    obtain ⟨e1, w, h1, h2, h3⟩ := hl k v List.mem_cons_self e
    simp only [List.map_cons, List.nodup_cons] at hd
    obtain ⟨e2, ws, i1, i2, i3, i4⟩ := ih hd.2 (fun x hx => hk x (List.mem_cons_of_mem _ hx))
      (fun k x hx => hl k x (List.mem_cons_of_mem _ hx)) (e ++ e1) (acc ++ [(k, w)]) (by
        intro x hx
        simp only [List.map_append, List.map_cons, List.map_nil, List.mem_append, List.mem_singleton, not_or]
        refine ⟨ha x (List.mem_cons_of_mem _ hx), ?_⟩
        rintro rfl
        exact hd.1 hx)
    refine ⟨e1 ++ e2, (k, w) :: ws, ?_, by simp [i2], ?_, ?_⟩
    · intro n hn
      have i1 := i1 n hn
      rw [← List.append_assoc] at i1
      rw [copyEntries, h1 n hn]
      simp only [Option.bind_eq_bind, Option.bind_some]
      rw [hk k List.mem_cons_self, setIndex_new _ _ _ (ha k List.mem_cons_self), i1]
      simp only [List.append_assoc, List.cons_append, List.nil_append]
    · intro i q x x' hx hx'
      cases i with
      | zero =>
        simp only [List.getElem?_cons_zero, Option.some.injEq, Prod.mk.injEq] at hx hx'
        obtain ⟨-, rfl⟩ := hx
        obtain ⟨-, rfl⟩ := hx'
        have := h2.mono [] e2
        simpa only [List.append_nil, List.append_assoc] using this
      | succ i =>
        simp only [List.getElem?_cons_succ] at hx hx'
        have := i3 i q x x' hx hx'
        simpa only [List.append_assoc] using this
    · intro x y hx
      rcases List.mem_cons.1 hx with hx | hx
      · cases hx
        have := h3.mono (Nat.le_refl _) e2
        simpa only [List.append_assoc] using this
      · have := (i4 x y hx).mono (b' := (h ++ e).length) (by simp only [List.length_append]; omega) []
        simpa only [List.append_nil, List.append_assoc] using this

theorem lookup_idx {α} [BEq α] [LawfulBEq α] {β γ} (l : List (α × β)) (l' : List (α × γ)) (hm : l'.map Prod.fst = l.map Prod.fst) (k : α) :
    (l.lookup k).isSome = (l'.lookup k).isSome ∧
    ∀ w w', l.lookup k = some w → l'.lookup k = some w' → ∃ i : Nat, l[i]? = some (k, w) ∧ l'[i]? = some (k, w') := by
  induction l generalizing l' with
  | nil => cases l' with
    | nil => simp
    | cons => simp at hm
  | cons p l ih => cases l' with
    | nil => simp at hm
    | cons p' l' =>
      obtain ⟨k1, w1⟩ := p
      obtain ⟨k2, w2⟩ := p'
      simp only [List.map_cons, List.cons.injEq] at hm
      obtain ⟨rfl, hm⟩ := hm
      obtain ⟨ih1, ih2⟩ := ih l' hm
      by_cases hk : k = k2
      · subst hk
        refine ⟨by simp [List.lookup], ?_⟩
        intro w w' h1 h2
        simp only [List.lookup, beq_self_eq_true, Option.some.injEq] at h1 h2
        subst h1 h2
        exact ⟨0, rfl, rfl⟩
      · have hb : (k == k2) = false := by simpa using hk
        simp only [List.lookup, hb]
        refine ⟨ih1, ?_⟩
        intro w w' h1 h2
        obtain ⟨i, h1, h2⟩ := ih2 w w' h1 h2
        exact ⟨i + 1, by simpa using h1, by simpa using h2⟩

theorem getElem?_last (h : Heap) (c : Cell) : (h ++ [c])[h.length]? = some c := by simp

theorem leaf {h : Heap} {v w : Val} (e : Heap) (hv : ∀ n, copyRec (n + 1) (h ++ e) v = some (h ++ e, w)) (n : Nat) (hn : 1 ≤ n) :
    copyRec n (h ++ e) v = some (h ++ e ++ [], w) := by
  obtain ⟨n, rfl⟩ : ∃ m, n = m + 1 := ⟨n - 1, by omega⟩
  rw [hv, List.append_nil]

theorem tame_copies {h : Heap} {v : Val} (ht : Tame h v) : ∃ N, Copies h N v := by
  induction ht with
  | @scalar n => exact ⟨1, fun e => ⟨[], _, leaf e (fun n => rfl), .scalar, .scalar⟩⟩
  | zero => exact ⟨1, fun e => ⟨[], _, leaf e (fun n => rfl), .zero, .zero⟩⟩
  | ptrNil => exact ⟨1, fun e => ⟨[], _, leaf e (fun n => rfl), .ptrNil, .ptrNil⟩⟩
  | @ptr a w hc _ ih =>
    obtain ⟨N, hN⟩ := ih
    refine ⟨N + 1, fun e => ?_⟩
    obtain ⟨e', w', h1, h2, h3⟩ := hN e
    refine ⟨e' ++ [.one w'], .ptr (some (h ++ e ++ e').length), ?_, ?_, ?_⟩
    · intro n hn
      obtain ⟨n, rfl⟩ : ∃ m, n = m + 1 := ⟨n - 1, by omega⟩
      rw [copyRec]
      simp only [getElem?_ext e hc, h1 n (by omega), Option.bind_eq_bind, Option.bind_some, List.append_assoc]
    · rw [← List.append_assoc]
      refine .ptr hc (getElem?_last _ _) ?_
      simpa only [List.append_nil] using h2.mono [] [.one w']
    · rw [← List.append_assoc]
      refine .ptr (by simp only [List.length_append]; omega) (getElem?_last _ _) (h3.mono (Nat.le_refl _) _)
  | ifaceNil => exact ⟨1, fun e => ⟨[], _, leaf e (fun n => rfl), .ifaceNil, .ifaceNil⟩⟩
  | @iface w _ ih =>
    obtain ⟨N, hN⟩ := ih
    refine ⟨N + 1, fun e => ?_⟩
    obtain ⟨e', w', h1, h2, h3⟩ := hN e
    refine ⟨e', .iface (some w'), ?_, .iface h2, .iface h3⟩
    intro n hn
    obtain ⟨n, rfl⟩ : ∃ m, n = m + 1 := ⟨n - 1, by omega⟩
    rw [copyRec]
    simp only [h1 n (by omega), Option.bind_eq_bind, Option.bind_some]
  | @struct fs _ ih =>
    obtain ⟨N, hN⟩ := copies_all ((fs.filter (·.1)).map Prod.snd) (by
      intro v hv
      simp only [List.mem_map, List.mem_filter] at hv
      obtain ⟨⟨x, v⟩, ⟨hm, hx⟩, rfl⟩ := hv
      simp only at hx
      subst hx
      exact ih v hm)
    refine ⟨N + 1, fun e => ?_⟩
    obtain ⟨e', ws, h1, h2, h3, h4⟩ := copyFields_ok fs (fun v hv => hN v (by
      simp only [List.mem_map, List.mem_filter]
      exact ⟨(true, v), ⟨hv, rfl⟩, rfl⟩)) e
    refine ⟨e', .struct ws, ?_, .struct h2.symm h3, .struct h4⟩
    intro n hn
    obtain ⟨n, rfl⟩ : ∃ m, n = m + 1 := ⟨n - 1, by omega⟩
    rw [copyRec]
    simp only [h1 n (by omega), Option.bind_eq_bind, Option.bind_some]
  | sliceNil => exact ⟨1, fun e => ⟨[], _, leaf e (fun n => rfl), .sliceNil, .sliceNil⟩⟩
  | @slice a off len cap xs hc hl _ ih =>
    obtain ⟨N, hN⟩ := copies_all _ ih
    refine ⟨N + 1, fun e => ?_⟩
    obtain ⟨e', ws, h1, h2, h3, h4⟩ := copyList_ok _ hN e
    refine ⟨e' ++ [.arr ws], .slice (some ((h ++ e ++ e').length, 0, len, cap)), ?_, ?_, ?_⟩
    · intro n hn
      obtain ⟨n, rfl⟩ : ∃ m, n = m + 1 := ⟨n - 1, by omega⟩
      rw [copyRec]
      simp only [getElem?_ext e hc, h1 n (by omega), Option.bind_eq_bind, Option.bind_some, List.append_assoc]
    · rw [← List.append_assoc]
      have hlen : ws.length = len := by rw [h2, List.length_take, List.length_drop]; omega
      refine .slice hc (getElem?_last _ _) hl (by omega) ?_
      intro i w w' hi hw hw'
      rw [Nat.zero_add] at hw'
      have := h3 i w w' (by rw [List.getElem?_take_of_lt hi, List.getElem?_drop]; exact hw) hw'
      simpa only [List.append_nil] using this.mono [] [.arr ws]
    · rw [← List.append_assoc]
      exact .slice (by simp only [List.length_append]; omega) (getElem?_last _ _)
        (fun w hw => (h4 w hw).mono (Nat.le_refl _) _)
  | mapNil => exact ⟨1, fun e => ⟨[], _, leaf e (fun n => rfl), .mapNil, .mapNil⟩⟩
  | @map a es hc hd hk _ ih =>
    obtain ⟨N, hN⟩ := copies_all (es.map Prod.snd) (by
      intro v hv
      obtain ⟨⟨k, v⟩, hm, rfl⟩ := List.mem_map.1 hv
      exact ih k v hm)
    refine ⟨N + 1, fun e => ?_⟩
    obtain ⟨e', ws, h1, h2, h3, h4⟩ := copyEntries_ok es hd (by
        intro k hk'
        obtain ⟨⟨k, v⟩, hm, rfl⟩ := List.mem_map.1 hk'
        refine copyKey_eq ?_
        rintro fs rfl
        exact hk fs v hm)
      (fun k v hv => hN v (List.mem_map.2 ⟨(k, v), hv, rfl⟩)) e [] (by simp)
    refine ⟨e' ++ [.tbl ws], .map (some (h ++ e ++ e').length), ?_, ?_, ?_⟩
    · intro n hn
      obtain ⟨n, rfl⟩ : ∃ m, n = m + 1 := ⟨n - 1, by omega⟩
      rw [copyRec]
      simp only [getElem?_ext e hc, h1 n (by omega), Option.bind_eq_bind, Option.bind_some, List.append_assoc, List.nil_append]
    · rw [← List.append_assoc]
      refine .map hc (getElem?_last _ _) (fun k => (lookup_idx es ws h2 k).1) ?_
      intro k w w' hw hw'
      obtain ⟨i, hi, hi'⟩ := (lookup_idx es ws h2 k).2 w w' hw hw'
      simpa only [List.append_nil] using (h3 i k w w' hi hi').mono [] [.tbl ws]
    · rw [← List.append_assoc]
      exact .map (by simp only [List.length_append]; omega) (getElem?_last _ _)
        (fun k w hw => (h4 k w hw).mono (Nat.le_refl _) _)
  | @array xs hn =>
    refine ⟨1, fun e => ⟨[], .array xs, ?_, ?_, .array fun w hw => (hn w hw).fresh _ _⟩⟩
    · intro n hn
      obtain ⟨n, rfl⟩ : ∃ m, n = m + 1 := ⟨n - 1, by omega⟩
      rw [copyRec, List.append_nil]
    · refine .array rfl ?_
      intro i w w' hw hw'
      rw [hw] at hw'
      cases hw'
      exact (hn w (List.mem_of_getElem? hw)).same _ _

/-- Partial: for every finite value whose arrays hold no references and whose map keys have no
unexported parts, the copy terminates, leaves every existing location unchanged, carries the same
exported data, and reaches only locations that did not exist before.  Missing: arrays of references,
keys with unexported fields and cyclic values, refuted below. -/
theorem C54_deepcopy_partial (h : Heap) (v : Val) (ht : Tame h v) :
    ∃ N h' v', (∀ n, N ≤ n → copyRec n h v = some (h', v')) ∧
      (∀ a, a < h.length → h'[a]? = h[a]?) ∧
      Same h h' v v' ∧
      (∀ a, Reach h' v' a → h.length ≤ a) := by
  obtain ⟨N, hN⟩ := tame_copies ht
  obtain ⟨e', v', h1, h2, h3⟩ := hN []
  simp only [List.append_nil] at h1 h2 h3
  exact ⟨N, h ++ e', v', h1, fun a ha => List.getElem?_append_left ha, h2, h3.reach⟩

/-- No location is shared: what the argument reaches, the copy does not. -/
theorem C54_disjoint_partial (h : Heap) (v : Val) (ht : Tame h v) (hw : ∀ a, Reach h v a → a < h.length) :
    ∃ N h' v', (∀ n, N ≤ n → copyRec n h v = some (h', v')) ∧ ∀ a, Reach h v a → ¬ Reach h' v' a := by
  obtain ⟨N, h', v', h1, -, -, h4⟩ := C54_deepcopy_partial h v ht
  exact ⟨N, h', v', h1, fun a ha ha' => absurd (hw a ha) (Nat.not_lt.2 (h4 a ha'))⟩

/-- Violation: an array is copied shallowly, so for every array with a reference, the copy reaches
the same location. -/
theorem C54_array_violated (h : Heap) (xs : List Val) (a : Nat) (hr : Reach h (.array xs) a) (n : Nat) :
    copyRec (n + 1) h (.array xs) = some (h, .array xs) ∧ Reach h (.array xs) a := ⟨rfl, hr⟩

/-- ... for example `[1]*int{&x}`. -/
example : copyRec 9 [.one (.scalar 5)] (.array [.ptr (some 0)]) = some ([.one (.scalar 5)], .array [.ptr (some 0)]) ∧
    Reach [.one (.scalar 5)] (.array [.ptr (some 0)]) 0 := ⟨rfl, .array (List.mem_singleton.2 rfl) .ptr⟩

/-- Violation: two map keys that differ only in an unexported field collapse into one. -/
theorem C54_keys_violated (x y : Nat) (hxy : x ≠ y) (p q : Nat) (n : Nat) :
    let h : Heap := [.tbl [(.struct [(false, x)], .scalar p), (.struct [(false, y)], .scalar q)]]
    copyRec (n + 2) h (.map (some 0)) = some (h ++ [.tbl [(.struct [(false, 0)], .scalar q)]], .map (some 1)) := by
  simp [copyRec, copyEntries, copyKey, setIndex]

/-- Violation: the copy of a pointer cycle never ends, whatever the stack. -/
theorem C54_cycle_violated (n : Nat) : copyRec n [.one (.ptr (some 0))] (.ptr (some 0)) = none := by
  induction n with
  | zero => rfl
  | succ n ih => simp [copyRec, ih]

/-- Not vacuous: a struct with an exported slice of pointers, a map and an unexported field is tame. -/
example : Tame [.one (.scalar 7), .arr [.scalar 1, .ptr (some 0)], .tbl [(.scalar 3, .ptr (some 0))]]
    (.struct [(true, .slice (some (1, 1, 1, 1))), (false, .ptr (some 9)), (true, .map (some 2)), (true, .array [.scalar 1])]) := by
  refine .struct ?_
  intro w hw
  simp only [List.mem_cons, Prod.mk.injEq, true_and, List.not_mem_nil, or_false, reduceCtorEq, false_and, false_or, Bool.true_eq_false] at hw
  rcases hw with rfl | rfl | rfl
  · refine .slice rfl (by decide) ?_
    intro w hw
    simp at hw
    subst hw
    exact .ptr rfl .scalar
  · refine .map rfl (by simp) (by simp) ?_
    intro k w hw
    simp at hw
    rw [hw.2]
    exact .ptr rfl .scalar
  · exact .array (by intro w hw; rw [List.mem_singleton.1 hw]; exact .scalar)

end Verif.Props
