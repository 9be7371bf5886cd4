import Verif.Spec.DataSet
import Verif.Model.DataSet
/-
C145: one goroutine's view of hash.DataSet: every answer is decided by the history of the changes, for every order of map
iteration.  C146: the map `All` returns is the set's own.
-/
namespace Verif.Props
open Verif.DataSet Spec.DataSet

/-- The change a call asks for. -/
def C145.change : Act → Option Change
  | .add k f => some (.put k f)
  | .remove k => some (.drop k)
  | .clean => some .wipe
  | .allStore k f => some (.put k f)
  | .allDelete k => some (.drop k)
  | _ => none

/-- The changes of a history. -/
def C145.changes (h : List (Act × Res)) : List Change := h.filterMap fun e => C145.change e.1

/-- What the history `h` before a call entitles its caller to. -/
def C145.Answer (h : List Change) : Act → Res → Prop
  | .has k, r => r = .bool (held h k).isSome
  | .get k, r => r = .fn (held h k).join
  | .names, r => ∃ l, r = .list l ∧ Lists h l
  | .len, r => ∃ l : List Nat, r = .num l.length ∧ Lists h l
  | .allLoad k, r => r = .entry (held h k)
  | _, r => r = .done

theorem C145.load_delete (m : GoMap) (k n : Nat) : (m.delete k).load n = if n = k then none else m.load n := by
  unfold GoMap.delete GoMap.load
  induction m with
  | nil => simp
  | cons e m ih =>
    by_cases hek : e.1 = k
    · have : List.filter (fun e : Nat × Option Nat => !(e.1 == k)) (e :: m) = List.filter (fun e => !(e.1 == k)) m := by
        simp [hek]
      rw [this, ih]
      by_cases hn : n = k
      · simp [hn]
      · have : ¬ e.1 = n := by omega
        simp [hn, this]
    · have : List.filter (fun e : Nat × Option Nat => !(e.1 == k)) (e :: m) = e :: List.filter (fun e => !(e.1 == k)) m := by
        simp [hek]
      rw [this]
      by_cases hen : e.1 = n
      · have : ¬ n = k := by omega
        simp [hen, this]
      · simp only [List.find?_cons]
        have : (e.1 == n) = false := by simp [hen]
        simp only [this]
        exact ih

theorem C145.load_store (m : GoMap) (k n : Nat) (f : Option Nat) :
    (m.store k f).load n = if n = k then some f else m.load n := by
  by_cases h : n = k
  · subst h; simp [GoMap.store, GoMap.load]
  · have h1 : (m.store k f).load n = (m.delete k).load n := by
      have : (k == n) = false := by simp; omega
      simp [GoMap.store, GoMap.load, this]
    rw [h1, C145.load_delete, if_neg h, if_neg h]

theorem C145.mem_keys (m : GoMap) (n : Nat) : n ∈ m.keys ↔ (m.load n).isSome = true := by
  unfold GoMap.keys GoMap.load
  simp only [List.mem_map, Option.isSome_map, List.find?_isSome, beq_iff_eq]

theorem C145.nodup_delete (m : GoMap) (k : Nat) (h : m.keys.Nodup) : (m.delete k).keys.Nodup := by
  unfold GoMap.keys GoMap.delete at *
  exact h.sublist (List.Sublist.map _ List.filter_sublist)

theorem C145.nodup_store (m : GoMap) (k : Nat) (f : Option Nat) (h : m.keys.Nodup) : (m.store k f).keys.Nodup := by
  have h1 := C145.nodup_delete m k h
  have h2 : k ∉ (m.delete k).keys := by rw [C145.mem_keys, C145.load_delete]; simp
  exact List.nodup_cons.2 ⟨h2, h1⟩

theorem C145.load_clean (o : List Nat) (m : GoMap) (n : Nat) :
    (clean m o).load n = if n ∈ o then none else m.load n := by
  unfold clean
  induction o generalizing m with
  | nil => simp
  | cons k o ih =>
    rw [List.foldl_cons, ih, C145.load_delete]
    by_cases h1 : n ∈ o <;> by_cases h2 : n = k <;> simp [h1, h2]

theorem C145.nodup_clean (o : List Nat) (m : GoMap) (h : m.keys.Nodup) : (clean m o).keys.Nodup := by
  unfold clean
  induction o generalizing m with
  | nil => exact h
  | cons k o ih => exact ih _ (C145.nodup_delete m k h)

theorem C145.names_eq (o : List Nat) : names o = o := by
  have : ∀ (o acc : List Nat), o.foldl (fun l k => l ++ [k]) acc = acc ++ o := by
    intro o
    induction o with
    | nil => simp
    | cons k o ih => intro acc; rw [List.foldl_cons, ih]; simp
  exact (this o []).trans rfl

/-- The invariant: the keys are distinct and every lookup is what the history says. -/
theorem C145.inv {h : List (Act × Res)} {m : GoMap} (r : Run h m) :
    m.keys.Nodup ∧ ∀ n, m.load n = held (C145.changes h) n := by
  induction r with
  | new => exact ⟨List.nodup_nil, fun n => rfl⟩
  | @step h m a r m' _ s ih =>
    obtain ⟨h1, h2⟩ := ih
    cases s with
    | add k f => exact ⟨C145.nodup_store _ _ _ h1, fun n => (C145.load_store m k n f).trans (by rw [h2 n]; rfl)⟩
    | allStore k f => exact ⟨C145.nodup_store _ _ _ h1, fun n => (C145.load_store m k n f).trans (by rw [h2 n]; rfl)⟩
    | remove k => exact ⟨C145.nodup_delete _ _ h1, fun n => (C145.load_delete m k n).trans (by rw [h2 n]; rfl)⟩
    | allDelete k => exact ⟨C145.nodup_delete _ _ h1, fun n => (C145.load_delete m k n).trans (by rw [h2 n]; rfl)⟩
    | clean o ho =>
      refine ⟨C145.nodup_clean _ _ h1, fun n => ?_⟩
      rw [C145.load_clean]
      show _ = none
      by_cases hn : n ∈ o
      · rw [if_pos hn]
      · rw [if_neg hn]
        have : n ∉ m.keys := fun hk => hn (ho.mem_iff.2 hk)
        rw [C145.mem_keys] at this
        simpa using this
    | has k => exact ⟨h1, h2⟩
    | get k => exact ⟨h1, h2⟩
    | names o ho => exact ⟨h1, h2⟩
    | len => exact ⟨h1, h2⟩
    | allLoad k => exact ⟨h1, h2⟩

theorem C145.lists {h : List (Act × Res)} {m : GoMap} (r : Run h m) : Lists (C145.changes h) m.keys :=
  ⟨(C145.inv r).1, fun n => by rw [C145.mem_keys, (C145.inv r).2 n]⟩

/-- Every call of every history on a new set, whatever orders the map iterations take, gets the answer the changes before it
entitle it to. -/
theorem C145_answers {h : List (Act × Res)} {m : GoMap} (hr : Run h m) (a : Act) (r : Res) (m' : GoMap)
    (hs : Step m a r m') : C145.Answer (C145.changes h) a r := by
  obtain ⟨h1, h2⟩ := C145.inv hr
  have h3 := C145.lists hr
  cases hs with
  | add k f => exact rfl
  | allStore k f => exact rfl
  | remove k => exact rfl
  | allDelete k => exact rfl
  | clean o ho => exact rfl
  | has k =>
    show Res.bool _ = Res.bool _
    rw [← h2 k]; unfold has; cases m.load k <;> rfl
  | get k =>
    show Res.fn _ = Res.fn _
    rw [← h2 k]; unfold DataSet.get; cases m.load k <;> rfl
  | names o ho =>
    refine ⟨o, congrArg _ (C145.names_eq o), ho.nodup_iff.2 h3.1, fun n => ?_⟩
    rw [ho.mem_iff]; exact h3.2 n
  | len => exact ⟨m.keys, by simp [GoMap.keys], h3⟩
  | allLoad k => exact congrArg Res.entry (h2 k)

/-- No call can get stuck: each has an answer in every state. -/
theorem C145_total (m : GoMap) (a : Act) : ∃ r m', Step m a r m' := by
  cases a with
  | add k f => exact ⟨_, _, .add m k f⟩
  | remove k => exact ⟨_, _, .remove m k⟩
  | clean => exact ⟨_, _, .clean m _ (List.Perm.refl _)⟩
  | has k => exact ⟨_, _, .has m k⟩
  | get k => exact ⟨_, _, .get m k⟩
  | names => exact ⟨_, _, .names m _ (List.Perm.refl _)⟩
  | len => exact ⟨_, _, .len m⟩
  | allStore k f => exact ⟨_, _, .allStore m k f⟩
  | allDelete k => exact ⟨_, _, .allDelete m k⟩
  | allLoad k => exact ⟨_, _, .allLoad m k⟩

/-- The lists that two calls of `Names` may give in one state are the same up to order, and `Len` is their length. -/
theorem C145_names_len {h : List (Act × Res)} {m : GoMap} (_ : Run h m) {l₁ l₂ : List Nat} {k : Nat} {m₁ m₂ m₃ : GoMap}
    (h1 : Step m .names (.list l₁) m₁) (h2 : Step m .names (.list l₂) m₂) (h3 : Step m .len (.num k) m₃) :
    l₁.Perm l₂ ∧ l₁.length = k := by
  have key : ∀ {l m'}, Step m .names (.list l) m' → l.Perm m.keys := by
    intro l m' hs
    generalize hr : Res.list l = r at hs
    cases hs with
    | names o ho => rw [C145.names_eq] at hr; injection hr with e; rw [e]; exact ho
  refine ⟨(key h1).trans (key h2).symm, ?_⟩
  generalize hr : Res.num k = r at h3
  cases h3 with
  | len => injection hr with e; rw [e, (key h1).length_eq]; simp [GoMap.keys]

/-- Three names are added, one is replaced and one removed: the remaining names come in either order, and the replaced
function is the one in force. -/
example : Run [(.get 1, .fn (some 9)), (.names, .list [3, 1]), (.names, .list [1, 3]), (.len, .num 2), (.remove 2, .done),
    (.add 1 (some 9), .done), (.add 3 none, .done), (.add 2 (some 8), .done), (.add 1 (some 7), .done)]
    [(1, some 9), (3, none)] := by
  refine .step (.step (.step (.step (.step (.step (.step (.step (.step .new (.add _ _ _)) (.add _ _ _)) (.add _ _ _))
    (.add _ _ _)) (.remove _ _)) (.len _)) (.names _ [1, 3] ?_)) (.names _ [3, 1] ?_)) (.get _ _)
  · decide
  · decide

/-- The changes made through the methods alone. -/
def C146.own : Act → Option Change
  | .add k f => some (.put k f)
  | .remove k => some (.drop k)
  | .clean => some .wipe
  | _ => none

/-- The property one would expect, "what `Has` answers is decided by the calls of Add, Remove and Clean", as long as the caller
only reads the map it got from `All`. -/
theorem C146_readonly_partial {h : List (Act × Res)} {m : GoMap} (hr : Run h m)
    (hread : ∀ e ∈ h, (∀ k f, e.1 ≠ .allStore k f) ∧ ∀ k, e.1 ≠ .allDelete k) (k : Nat) (b : Bool) (m' : GoMap)
    (hs : Step m (.has k) (.bool b) m') : b = (held (h.filterMap fun e => C146.own e.1) k).isSome := by
  have e : C145.changes h = h.filterMap fun e => C146.own e.1 := by
    clear hr
    unfold C145.changes
    induction h with
    | nil => rfl
    | cons e h ih =>
      have h0 := ih fun x hx => hread x (List.mem_cons_of_mem _ hx)
      obtain ⟨h1, h2⟩ := hread e List.mem_cons_self
      have h3 : C145.change e.1 = C146.own e.1 := by
        rcases e with ⟨a, r⟩
        cases a with
        | allStore k f => exact absurd rfl (h1 k f)
        | allDelete k => exact absurd rfl (h2 k)
        | _ => rfl
      rw [List.filterMap_cons, List.filterMap_cons, h3, h0]
  have := C145_answers hr _ _ _ hs
  rw [e] at this
  injection this

/-- It fails for a caller that writes to that map: for every name there is a history without Add, Remove or Clean after which
`Has` answers true, and one in which a name that was added and never removed is gone. -/
theorem C146_isolation_violated (k : Nat) (f : Option Nat) :
    (∃ h m, Run h m ∧ h.filterMap (fun e => C146.own e.1) = [] ∧ Step m (.has k) (.bool true) m) ∧
    (∃ h m, Run h m ∧ held (h.filterMap fun e => C146.own e.1) k = some f ∧ Step m (.has k) (.bool false) m) := by
  refine ⟨⟨[(.allStore k f, .done)], _, .step .new (.allStore _ k f), rfl, ?_⟩,
    ⟨[(.allDelete k, .done), (.add k f, .done)], _, .step (.step .new (.add _ k f)) (.allDelete _ k), ?_, ?_⟩⟩
  · have : has (GoMap.store [] k f) k = true := by unfold has; rw [C145.load_store, if_pos rfl]
    rw [← this]; exact .has _ _
  · exact if_pos rfl
  · have : has ((GoMap.store [] k f).delete k) k = false := by unfold has; rw [C145.load_delete, if_pos rfl]
    rw [← this]; exact .has _ _

/-- A caller that reads through `All` meets the hypotheses of the partial theorem. -/
example : Run [(.allLoad 5, .entry (some (some 2))), (.add 5 (some 2), .done)] [(5, some 2)] :=
  .step (.step .new (.add _ _ _)) (.allLoad _ _)

end Verif.Props
