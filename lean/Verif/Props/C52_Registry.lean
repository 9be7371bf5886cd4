import Verif.Model.Registry
/-
C52: the algorithm registry under concurrency.  C53: identifiers are distinct.
-/
namespace Verif.Props
open Verif.Registry

/-- The pairs registered by any goroutine of a program. -/
def Registers (progs : List (List Call)) (n f : Nat) : Prop := ∃ p ∈ progs, Call.add n (some f) ∈ p

/-- The calls of the program. -/
def Makes (progs : List (List Call)) (c : Call) : Prop := ∃ p ∈ progs, c ∈ p

/-- A map write. -/
def Writes : Call → Prop
  | .add _ _ | .remove _ | .clean => True
  | _ => False

/-- Programs without the two races: a name looked up by `getHash` is never removed nor registered with
a nil function, and `Names` is not called in a program that writes. -/
structure RaceFree (progs : List (List Call)) : Prop where
  removed : ∀ n, Makes progs (.getHash n) → ¬ Makes progs (.remove n) ∧ ¬ Makes progs .clean ∧ ¬ Makes progs (.add n none)
  names : Makes progs .names → ∀ c, Makes progs c → ¬ Writes c

/-- What a step preserves in every program: pending calls are calls of the program, the map holds
registered functions only, and so do goroutines and results. -/
structure Inv (progs : List (List Call)) (s : Sys) : Prop where
  todo : ∀ t ∈ s.threads, ∀ c ∈ t.todo, Makes progs c
  map : ∀ n f, s.map n = some (some f) → Registers progs n f
  nilFn : ∀ n, s.map n = some none → Makes progs (.add n none)
  get : ∀ t ∈ s.threads, ∀ n f, t.pc = .afterGet n (some f) → Registers progs n f
  pend : ∀ t ∈ s.threads, ∀ n, t.pc = .afterHas n → Makes progs (.getHash n)
  pend' : ∀ t ∈ s.threads, ∀ n f, t.pc = .afterGet n f → Makes progs (.getHash n)
  iter : ∀ t ∈ s.threads, t.pc = .iterating → Makes progs .names
  res : ∀ r ∈ s.results, ∀ n f, (r = .getR n (some f) ∨ r = .called n f) → Registers progs n f

theorem mem_set_imp {α} {l : List α} {i : Nat} {x t : α} (h : t ∈ l.set i x) : t ∈ l ∨ t = x := by
  rcases List.mem_or_eq_of_mem_set h with h | h
  · exact .inl h
  · exact .inr h

/-- One goroutine changes, the map and the results may change too. -/
theorem Inv.update {progs s} (h : Inv progs s) (i : Nat) (t : Thread) (m : Nat → Option (Option Nat)) (rs : List Res)
    (b : Bool)
    (h1 : ∀ c ∈ t.todo, Makes progs c)
    (h2 : ∀ n f, t.pc = .afterGet n (some f) → Registers progs n f)
    (h3 : ∀ n, t.pc = .afterHas n → Makes progs (.getHash n))
    (h3' : ∀ n f, t.pc = .afterGet n f → Makes progs (.getHash n))
    (h4 : t.pc = .iterating → Makes progs .names)
    (h5 : ∀ n f, m n = some (some f) → Registers progs n f)
    (h6 : ∀ n, m n = some none → Makes progs (.add n none))
    (h7 : ∀ r ∈ rs, ∀ n f, (r = .getR n (some f) ∨ r = .called n f) → Registers progs n f) :
    Inv progs { map := m, threads := s.threads.set i t, results := rs, crashed := b } where
  todo u hu := 
    by rcases mem_set_imp hu with hu | rfl
       · exact h.todo u hu
       · exact h1
  map := h5
  nilFn := h6
  get u hu := 
    by rcases mem_set_imp hu with hu | rfl
       · exact h.get u hu
       · exact h2
  pend u hu := 
    by rcases mem_set_imp hu with hu | rfl
       · exact h.pend u hu
       · exact h3
  pend' u hu := 
    by rcases mem_set_imp hu with hu | rfl
       · exact h.pend' u hu
       · exact h3'
  iter u hu := 
    by rcases mem_set_imp hu with hu | rfl
       · exact h.iter u hu
       · exact h4
  res := h7

theorem Inv.crash {progs s} (h : Inv progs s) (b : Bool) : Inv progs { s with crashed := b } :=
  ⟨h.todo, h.map, h.nilFn, h.get, h.pend, h.pend', h.iter, h.res⟩

theorem res_append {progs} {rs : List Res}
    (h : ∀ r ∈ rs, ∀ n f, (r = .getR n (some f) ∨ r = .called n f) → Registers progs n f) (r : Res)
    (hr : ∀ n f, (r = .getR n (some f) ∨ r = .called n f) → Registers progs n f) :
    ∀ r' ∈ rs ++ [r], ∀ n f, (r' = .getR n (some f) ∨ r' = .called n f) → Registers progs n f := by
  intro r' hm
  rcases List.mem_append.1 hm with hm | hm
  · exact h r' hm
  · rw [List.mem_singleton.1 hm]; exact hr

theorem Inv.store {progs s} (h : Inv progs s) (i : Nat) (r : List Call) (m : Nat → Option (Option Nat))
    (h1 : ∀ c ∈ r, Makes progs c) (h5 : ∀ n f, m n = some (some f) → Registers progs n f)
    (h6 : ∀ n, m n = some none → Makes progs (.add n none)) : Inv progs (s.store i r m) := by
  unfold Sys.store
  split
  · exact h.crash true
  · exact h.update i _ m s.results _ h1 (by simp) (by simp) (by simp) (by simp) h5 h6 h.res

theorem Inv.stepThread {progs s} (h : Inv progs s) (i : Nat) (t : Thread) (ht : t ∈ s.threads) :
    Inv progs (s.stepThread i t) := by
  have hj : ∀ n f, (s.map n).join = some f → s.map n = some (some f) := by
    intro n f hh
    cases e : s.map n with
    | none => rw [e] at hh; cases hh
    | some x => rw [e] at hh; exact congrArg some hh
  obtain ⟨pc, todo⟩ := t
  have htd := h.todo _ ht
  cases pc with
  | afterHas n =>
    refine h.update i _ s.map s.results _ htd ?_ (by simp) ?_ (by simp) h.map h.nilFn h.res
    · intro k f he
      simp only [Pc.afterGet.injEq] at he
      obtain ⟨rfl, he⟩ := he
      exact h.map _ _ (hj _ _ he)
    · intro k f he
      simp only [Pc.afterGet.injEq] at he
      obtain ⟨rfl, -⟩ := he
      exact h.pend _ ht n rfl
  | afterGet n f =>
    cases f with
    | none => exact h.crash true
    | some f =>
      refine h.update i _ s.map _ _ htd (by simp) (by simp) (by simp) (by simp) h.map h.nilFn (res_append h.res _ ?_)
      intro k g he
      rcases he with he | he
      · cases he
      · cases he; exact h.get _ ht _ _ rfl
  | iterating => exact h.update i _ s.map s.results _ htd (by simp) (by simp) (by simp) (by simp) h.map h.nilFn h.res
  | idle =>
    cases todo with
    | nil => exact h
    | cons c r =>
      have hr : ∀ c ∈ r, Makes progs c := fun c hc => htd c (List.mem_cons_of_mem _ hc)
      have hc : Makes progs c := htd c List.mem_cons_self
      cases c with
      | add n f =>
        refine h.store i r _ hr ?_ ?_
        · intro k g he
          split at he
          · subst_vars
            cases he
            exact hc
          · exact h.map _ _ he
        · intro k he
          split at he
          · subst_vars
            cases he
            exact hc
          · exact h.nilFn _ he
      | remove n =>
        refine h.store i r _ hr ?_ ?_
        · intro k g he
          split at he
          · cases he
          · exact h.map _ _ he
        · intro k he
          split at he
          · cases he
          · exact h.nilFn _ he
      | clean => exact h.store i r _ hr (by simp) (by simp)
      | has n =>
        exact h.update i _ s.map _ _ hr (by simp) (by simp) (by simp) (by simp) h.map h.nilFn
          (res_append h.res _ (by simp))
      | get n =>
        refine h.update i _ s.map _ _ hr (by simp) (by simp) (by simp) (by simp) h.map h.nilFn
          (res_append h.res _ ?_)
        intro k g he
        rcases he with he | he
        · simp only [Res.getR.injEq] at he
          obtain ⟨rfl, he⟩ := he
          exact h.map _ _ (hj _ _ he)
        · cases he
      | getHash n =>
        unfold Sys.stepThread
        simp only
        split
        · refine h.update i _ s.map s.results _ hr (by simp) ?_ (by simp) (by simp) h.map h.nilFn h.res
          intro k he
          simp only [Pc.afterHas.injEq] at he
          subst he
          exact hc
        · exact h.update i _ s.map _ _ hr (by simp) (by simp) (by simp) (by simp) h.map h.nilFn
            (res_append h.res _ (by simp))
      | names => exact h.update i _ s.map s.results _ hr (by simp) (by simp) (by simp) (fun _ => hc) h.map h.nilFn h.res

theorem Inv.step {progs s} (h : Inv progs s) (i : Nat) : Inv progs (s.step i) := by
  unfold Sys.step
  split
  · exact h
  · split
    · exact h
    · next t ht => exact h.stepThread i t (List.mem_of_getElem? ht)

theorem Inv.start (progs : List (List Call)) : Inv progs (start progs) where
  todo t ht := by
    obtain ⟨p, hp, rfl⟩ := List.mem_map.1 ht
    exact fun c hc => ⟨p, hp, hc⟩
  map := by simp [Registry.start]
  nilFn := by simp [Registry.start]
  get t ht := by obtain ⟨p, hp, rfl⟩ := List.mem_map.1 ht; simp
  pend t ht := by obtain ⟨p, hp, rfl⟩ := List.mem_map.1 ht; simp
  pend' t ht := by obtain ⟨p, hp, rfl⟩ := List.mem_map.1 ht; simp
  iter t ht := by obtain ⟨p, hp, rfl⟩ := List.mem_map.1 ht; simp
  res := by simp [Registry.start]

theorem Inv.exec {progs s} (h : Inv progs s) (sched : List Nat) : Inv progs (s.exec sched) := by
  unfold Sys.exec
  induction sched generalizing s with
  | nil => exact h
  | cons i sched ih => exact ih (h.step i)

/-- For every program (any number of goroutines, any calls) and every schedule: whatever non-nil
function `Get` returns, and whatever function `getHash` calls, was registered under that name. -/
theorem C52_lookup_registered (progs : List (List Call)) (sched : List Nat) (n f : Nat)
    (h : Res.getR n (some f) ∈ ((start progs).exec sched).results ∨
      Res.called n f ∈ ((start progs).exec sched).results) :
    Registers progs n f := by
  have hi := (Inv.start progs).exec sched
  rcases h with h | h
  · exact hi.res _ h n f (.inl rfl)
  · exact hi.res _ h n f (.inr rfl)

/-- What keeps a race-free program from crashing. -/
structure Safe (s : Sys) : Prop where
  alive : s.crashed = false
  pend : ∀ t ∈ s.threads, ∀ n, t.pc = .afterHas n → ∃ f, s.map n = some (some f)
  got : ∀ t ∈ s.threads, ∀ n, t.pc ≠ .afterGet n none

theorem Safe.update {s} (h : Safe s) (i : Nat) (t : Thread) (m : Nat → Option (Option Nat)) (rs : List Res)
    (h1 : ∀ n, t.pc = .afterHas n → ∃ f, m n = some (some f))
    (h2 : ∀ n, t.pc ≠ .afterGet n none)
    (h3 : ∀ u ∈ s.threads, ∀ n, u.pc = .afterHas n → ∃ f, m n = some (some f)) :
    Safe { map := m, threads := s.threads.set i t, results := rs, crashed := s.crashed } where
  alive := h.alive
  pend u hu := 
    by rcases mem_set_imp hu with hu | rfl
       · exact h3 u hu
       · exact h1
  got u hu := 
    by rcases mem_set_imp hu with hu | rfl
       · exact h.got u hu
       · exact h2

theorem Safe.store {progs s} (hr : RaceFree progs) (hi : Inv progs s) (h : Safe s) (i : Nat) (r : List Call)
    (m : Nat → Option (Option Nat)) (c : Call) (hc : Makes progs c) (hw : Writes c)
    (h3 : ∀ u ∈ s.threads, ∀ n, u.pc = .afterHas n → ∃ f, m n = some (some f)) : Safe (s.store i r m) := by
  unfold Sys.store
  split
  · next hit =>
    simp only [Sys.iterated, List.any_eq_true, decide_eq_true_eq] at hit
    obtain ⟨u, hu, hp⟩ := hit
    exact absurd hw (hr.names (hi.iter u hu hp) c hc)
  · exact h.update i _ m s.results (by simp) (by simp) h3

theorem Safe.stepThread {progs s} (hr : RaceFree progs) (hi : Inv progs s) (h : Safe s) (i : Nat) (t : Thread)
    (ht : t ∈ s.threads) : Safe (s.stepThread i t) := by
  obtain ⟨pc, todo⟩ := t
  have htd := hi.todo _ ht
  cases pc with
  | afterHas n =>
    obtain ⟨f, hf⟩ := h.pend _ ht n rfl
    refine h.update i _ s.map s.results (by simp) ?_ h.pend
    intro k he
    rw [hf] at he
    cases he
  | afterGet n f =>
    cases f with
    | none => exact absurd rfl (h.got _ ht n)
    | some f => exact h.update i _ s.map _ (by simp) (by simp) h.pend
  | iterating => exact h.update i _ s.map s.results (by simp) (by simp) h.pend
  | idle =>
    cases todo with
    | nil => exact h
    | cons c r =>
      have hc : Makes progs c := htd c List.mem_cons_self
      cases c with
      | add n f =>
        refine Safe.store hr hi h i r _ _ hc trivial ?_
        intro u hu k he
        split
        · next e =>
          subst e
          cases f with
          | none => exact absurd hc (hr.removed _ (hi.pend u hu _ he)).2.2
          | some f => exact ⟨f, rfl⟩
        · exact h.pend u hu k he
      | remove n =>
        refine Safe.store hr hi h i r _ _ hc trivial ?_
        intro u hu k he
        split
        · next e =>
          subst e
          exact absurd hc (hr.removed _ (hi.pend u hu _ he)).1
        · exact h.pend u hu k he
      | clean =>
        refine Safe.store hr hi h i r _ _ hc trivial ?_
        intro u hu k he
        exact absurd hc (hr.removed _ (hi.pend u hu _ he)).2.1
      | has n => exact h.update i _ s.map _ (by simp) (by simp) h.pend
      | get n => exact h.update i _ s.map _ (by simp) (by simp) h.pend
      | getHash n =>
        unfold Sys.stepThread
        simp only
        split
        · next hs =>
          refine h.update i _ s.map s.results ?_ (by simp) h.pend
          intro k he
          simp only [Pc.afterHas.injEq] at he
          subst he
          cases e : s.map n with
          | none => rw [e] at hs; cases hs
          | some x => cases x with
            | none => exact absurd (hi.nilFn n e) (hr.removed _ hc).2.2
            | some f => exact ⟨f, rfl⟩
        · exact h.update i _ s.map _ (by simp) (by simp) h.pend
      | names => exact h.update i _ s.map s.results (by simp) (by simp) h.pend

theorem Safe.exec {progs s} (hr : RaceFree progs) (hi : Inv progs s) (h : Safe s) (sched : List Nat) :
    Safe (s.exec sched) := by
  unfold Sys.exec
  induction sched generalizing s with
  | nil => exact h
  | cons i sched ih =>
    refine ih (hi.step i) ?_
    unfold Sys.step
    split
    · exact h
    · split
      · exact h
      · next t ht => exact h.stepThread hr hi i t (List.mem_of_getElem? ht)

theorem Safe.start (progs : List (List Call)) : Safe (start progs) where
  alive := rfl
  pend t ht := by obtain ⟨p, hp, rfl⟩ := List.mem_map.1 ht; simp
  got t ht := by obtain ⟨p, hp, rfl⟩ := List.mem_map.1 ht; simp

/-- Partial: no schedule crashes a program in which names looked up by `getHash` are not removed and
`Names` does not run beside writers.  Missing: the other programs, which the two violations below refute. -/
theorem C52_no_panic_partial (progs : List (List Call)) (hr : RaceFree progs) (sched : List Nat) :
    ((start progs).exec sched).crashed = false :=
  (Safe.exec hr (Inv.start progs) (Safe.start progs) sched).alive

/-- Violation: `getHash` checks and fetches in two separately locked steps.  For every name and
function, a goroutine that registers and looks up the name beside one that removes it has a schedule
that calls a nil function. -/
theorem C52_toctou_violated (n f : Nat) :
    ((start [[.add n (some f), .getHash n], [.remove n]]).exec [0, 0, 1, 0, 0]).crashed = true := by
  simp [Sys.exec, Registry.start, Sys.step, Sys.stepThread, Sys.store, Sys.iterated, Sys.put]

/-- Violation: `Names` iterates without the lock, so a concurrent `Add` is a fatal error. -/
theorem C52_names_violated (n f : Nat) :
    ((start [[.names], [.add n (some f)]]).exec [0, 1, 0]).crashed = true := by
  simp [Sys.exec, Registry.start, Sys.step, Sys.stepThread, Sys.store, Sys.iterated, Sys.put]

/-- Not vacuous: two goroutines that register and look up are race-free, and the lookups do run. -/
example : RaceFree [[.add 7 (some 1), .getHash 7], [.add 7 (some 2), .getHash 7, .remove 8]] := by
  constructor
  · intro n h
    simp [Makes] at h ⊢
    omega
  · intro h; simp [Makes] at h
example : ((start [[.add 7 (some 1), .getHash 7], [.add 7 (some 2), .getHash 7, .remove 8]]).exec
    [0, 0, 1, 0, 0]).results = [.called 7 2] := by
  simp [Sys.exec, Registry.start, Sys.step, Sys.stepThread, Sys.store, Sys.iterated, Sys.put]

/-! ### C53 -/

theorem generateN_eq (n : Nat) (m : U64) : generateN n m = (List.range n).map fun i => m + BitVec.ofNat 64 i := by
  induction n generalizing m with
  | zero => rfl
  | succ n ih =>
    rw [generateN, ih, List.range_succ_eq_map, List.map_cons, List.map_map]
    simp only [generate, Function.comp_def, List.cons.injEq]
    refine ⟨by simp, ?_⟩
    apply List.map_congr_left
    intro i _
    apply BitVec.eq_of_toNat_eq
    simp only [BitVec.toNat_add, BitVec.toNat_ofNat, Nat.succ_eq_add_one]
    simp
    omega

/-- Sequential `Generate` calls from any starting value return pairwise distinct identifiers, up to
the 2^64 values there are. -/
theorem C53_distinct (n : Nat) (hn : n ≤ 2 ^ 64) (m : U64) : (generateN n m).Nodup := by
  rw [generateN_eq, List.Nodup, List.pairwise_map]
  refine List.Pairwise.imp_of_mem ?_ (List.nodup_range (n := n))
  intro i j hi hj hne he
  rw [List.mem_range] at hi hj
  have h := congrArg BitVec.toNat he
  simp only [BitVec.toNat_add, BitVec.toNat_ofNat] at h
  have := m.isLt
  omega

/-- An identifier is the starting value plus the number of earlier calls, whatever is generated later. -/
theorem C53_stable (n k i : Nat) (hi : i < n) (m : U64) :
    (generateN (n + k) m)[i]? = some (m + BitVec.ofNat 64 i) ∧ (generateN n m)[i]? = some (m + BitVec.ofNat 64 i) := by
  rw [generateN_eq, generateN_eq]
  constructor
  · rw [List.getElem?_map, List.getElem?_range (by omega)]; rfl
  · rw [List.getElem?_map, List.getElem?_range hi]; rfl

/-- The registry's identifiers never collide with the reserved values 0 and `unknown` (below 2^64 - 2
registrations). -/
theorem C53_reserved (n : Nat) (hn : n ≤ 2 ^ 64 - 2) (id : U64) (h : id ∈ generateN n maxMode) :
    id ≠ 0 ∧ id ≠ unknownMode := by
  rw [generateN_eq, List.mem_map] at h
  obtain ⟨i, hi, rfl⟩ := h
  rw [List.mem_range] at hi
  constructor
  · intro he
    have h := congrArg BitVec.toNat he
    simp [maxMode] at h
    omega
  · intro he
    have h := congrArg BitVec.toNat he
    simp [maxMode, unknownMode] at h
    omega

/-- Outside the sequential claim: two concurrent `Generate` calls can return the same identifier, for
every starting value. -/
theorem C53_concurrent_duplicate (m : U64) :
    [0, 1, 0, 1, 0, 1].foldl genStep (m, [.start, .start]) = (m + 1, [.done m, .done m]) := by
  simp [genStep]

example : generateN 3 maxMode = [2, 3, 4] := by decide

end Verif.Props
