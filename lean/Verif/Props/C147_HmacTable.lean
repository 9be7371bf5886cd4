import Verif.Model.HmacTable
/-
C147: the table of constructors for HMAC under concurrency.
-/
namespace Verif.Props
open Verif.HMAC Verif.HmacTable

/-- Only lookups, in the goroutines of the system. -/
def C147.ReadOnly {φ} (s : Sys φ) : Prop :=
  ∀ t ∈ s.threads, t.writing = none ∧ ∀ c ∈ t.todo, ∃ h, c = .new h

theorem C147.notBusy {φ} (s : Sys φ) (h : C147.ReadOnly s) : s.busy = false := by
  unfold Sys.busy
  rw [List.any_eq_false]
  intro t ht
  rw [(h t ht).1]
  exact Bool.false_ne_true

theorem C147.readOnly_set {φ} (s : Sys φ) (i : Nat) (t : Thread φ) (c : Call φ) (r : List (Call φ))
    (h : C147.ReadOnly s) (ht : t ∈ s.threads) (hc : t.todo = c :: r) :
    ∀ u ∈ s.threads.set i ⟨none, r⟩, u.writing = none ∧ ∀ c ∈ u.todo, ∃ h, c = .new h := by
  intro u hu
  rcases List.mem_or_eq_of_mem_set hu with hu | hu
  · exact h u hu
  · subst hu
    exact ⟨rfl, fun c' hc' => (h t ht).2 c' (by rw [hc]; exact List.mem_cons_of_mem _ hc')⟩

/-- What the goroutine `i` has got and has still to ask for: together, its whole program; `n i` is how often it has run. -/
def C147.Whole {φ} (T : Table φ) (progs : List (List (Call φ))) (n : Nat → Nat) (s : Sys φ) : Prop :=
  ∀ (i : Nat) (p : List (Call φ)), progs[i]? = some p → ∃ (got : List Nat) (t : Thread φ), s.threads[i]? = some t ∧
    p = got.map Call.new ++ t.todo ∧ got.length = min (n i) p.length ∧
    s.results.filter (fun x => x.1 == i) = got.map fun h => (i, h, lookup T h)

theorem C147.inv {φ} (T : Table φ) (progs : List (List (Call φ))) (sch : List Nat) :
    ∀ (n : Nat → Nat) (s : Sys φ), s.table = T → s.crashed = false → C147.ReadOnly s → C147.Whole T progs n s →
      (s.run sch).crashed = false ∧ (s.run sch).table = T ∧ C147.Whole T progs (fun i => n i + sch.count i) (s.run sch) := by
  induction sch with
  | nil => intro n s h1 h2 _ h4; exact ⟨h2, h1, h4⟩
  | cons i is ih =>
    intro n s h1 h2 h3 h4
    show ((s.step i).run is).crashed = false ∧ ((s.step i).run is).table = T ∧ C147.Whole T progs _ ((s.step i).run is)
    have hn : (fun j => n j + (i :: is).count j) = fun j => (n j + if i = j then 1 else 0) + is.count j := by
      funext j
      rw [List.count_cons]
      by_cases e : i = j
      · rw [if_pos e, if_pos (by simp [e])]; omega
      · rw [if_neg e, if_neg (by simp [e])]; omega
    rw [hn]
    have hstep : (s.step i = s ∧ ∀ t, s.threads[i]? = some t → t.todo = []) ∨ ∃ t h r, s.threads[i]? = some t ∧ t.todo = .new h :: r ∧
        s.step i = { s with threads := s.threads.set i ⟨none, r⟩, results := s.results ++ [(i, h, lookup s.table h)] } := by
      unfold Sys.step
      rw [h2]
      cases ht : s.threads[i]? with
      | none => exact .inl ⟨rfl, fun t ht' => by cases ht'⟩
      | some t =>
        have hm : t ∈ s.threads := List.mem_of_getElem? ht
        obtain ⟨hw, hc⟩ := h3 t hm
        rcases t with ⟨w, todo⟩
        dsimp only at hw hc
        subst hw
        cases todo with
        | nil => exact .inl ⟨rfl, fun t ht' => by injection ht' with e; rw [← e]⟩
        | cons c r =>
          obtain ⟨h, rfl⟩ := hc c List.mem_cons_self
          refine .inr ⟨_, h, r, rfl, rfl, ?_⟩
          show (if s.busy then _ else _) = _
          rw [C147.notBusy s h3, if_neg Bool.false_ne_true, h2]
    rcases hstep with ⟨he, hend⟩ | ⟨t, h, r, ht, htodo, he⟩
    · rw [he]
      refine ih _ s h1 h2 h3 fun j p hp => ?_
      obtain ⟨got, u, hu, hp', hlen, hres⟩ := h4 j p hp
      refine ⟨got, u, hu, hp', ?_, hres⟩
      by_cases hij : i = j
      · subst hij
        have : p.length = got.length := by rw [hp', hend u hu]; simp
        rw [if_pos rfl]; omega
      · rw [if_neg hij]; exact hlen
    · rw [he]
      refine ih _ _ h1 h2 (C147.readOnly_set s i t _ r h3 (List.mem_of_getElem? ht) htodo) ?_
      intro j p hp
      obtain ⟨got, u, hu, hp', hlen, hres⟩ := h4 j p hp
      by_cases hij : i = j
      · subst hij
        have htu : u = t := Option.some.inj (hu.symm.trans ht)
        subst htu
        refine ⟨got ++ [h], ⟨none, r⟩, ?_, ?_, ?_, ?_⟩
        · dsimp only
          rw [List.getElem?_set_self (List.getElem?_eq_some_iff.1 ht).1]
        · rw [hp', htodo]; simp
        · have : p.length = got.length + (r.length + 1) := by rw [hp', htodo]; simp
          dsimp only
          rw [if_pos rfl, List.length_append, List.length_singleton]; omega
        · dsimp only
          rw [List.filter_append, hres, h1]; simp
      · refine ⟨got, u, ?_, hp', ?_, ?_⟩
        · dsimp only
          rw [List.getElem?_set_ne hij]; exact hu
        · dsimp only; rw [if_neg hij]; exact hlen
        · dsimp only
          rw [List.filter_append, hres]
          have : (i == j) = false := by simp [hij]
          simp [this]

/-- The property one would expect, "goroutines may call RegisterHmacHash and New at any time: no schedule kills the process, and
every New gives the constructor registered last", holds if the registrations are over: when the goroutines only look up, no schedule
kills the process, the table keeps its contents, and each goroutine gets, at each of its turns until its program ends and in
its order, the constructors of the table (`none`, the documented panic, where there is none). -/
theorem C147_lookups_partial {φ} (T : Table φ) (progs : List (List Nat)) (sch : List Nat) :
    let s := (start T (progs.map fun p => p.map Call.new)).run sch
    s.crashed = false ∧ s.table = T ∧ ∀ (i : Nat) (p : List Nat), progs[i]? = some p →
      s.results.filter (fun x => x.1 == i) = (p.take (sch.count i)).map fun h => (i, h, (T h).join) := by
  intro s
  have h0 : C147.ReadOnly (start T (progs.map fun p => p.map Call.new)) := by
    intro t ht
    simp only [start, List.mem_map] at ht
    obtain ⟨q, ⟨p, _, rfl⟩, rfl⟩ := ht
    refine ⟨rfl, fun c hc => ?_⟩
    obtain ⟨h, _, rfl⟩ := List.mem_map.1 hc
    exact ⟨h, rfl⟩
  have h1 : C147.Whole T (progs.map fun p => p.map Call.new) (fun _ => 0) (start T (progs.map fun p => p.map Call.new)) := by
    intro i p hp
    refine ⟨[], ⟨none, p⟩, ?_, rfl, by simp, rfl⟩
    show (List.map _ _)[i]? = _
    rw [List.getElem?_map, hp]
    rfl
  obtain ⟨a, b, c⟩ := C147.inv T _ sch _ _ rfl rfl h0 h1
  refine ⟨a, b, fun i p hp => ?_⟩
  obtain ⟨got, t, _, hp', hlen, hres⟩ := c i (p.map Call.new) (by rw [List.getElem?_map, hp]; rfl)
  obtain ⟨l₁, l₂, hl, h2, h3⟩ := List.map_eq_append_iff.1 hp'
  have hg : l₁ = got := (List.map_inj_right (fun x y e => by injection e)).1 h2
  rw [hg] at hl
  rw [hres]
  refine congrArg _ ?_
  dsimp only at hlen
  rw [List.length_map, Nat.zero_add] at hlen
  have hle : got.length ≤ sch.count i := by omega
  by_cases hc : sch.count i ≤ p.length
  · have : sch.count i = got.length := by omega
    rw [this, hl, List.take_left' rfl]
  · rw [List.take_of_length_le (by omega)]
    have h4 : got.length = p.length := by omega
    have h5 : l₂ = [] := List.eq_nil_of_length_eq_zero (by rw [hl, List.length_append] at h4; omega)
    rw [hl, h5, List.append_nil]

/-- It fails otherwise: two goroutines that register, or one that registers and one that looks up, can kill the process, whatever
the numbers (also two different ones), the functions and the contents of the table. -/
theorem C147_concurrent_violated {φ} (T : Table φ) (h k : Nat) (f g : Option φ) :
    (∃ sch, ((start T [[.register h f], [.register k g]]).run sch).crashed = true) ∧
    (∃ sch, ((start T [[.register h f], [.new k]]).run sch).crashed = true) :=
  ⟨⟨[0, 1], rfl⟩, ⟨[0, 1], rfl⟩⟩

/-- One after the other they do what they should: the fault is the missing lock, not the calls. -/
theorem C147_serial {φ} (T : Table φ) (h : Nat) (f : Option φ) (k : Nat) :
    let s := (start T [[.register h f], [.new k]]).run [0, 0, 1]
    s.crashed = false ∧ s.results = [(1, k, if k = h then f else (T k).join)] := by
  refine ⟨rfl, ?_⟩
  show [(1, k, lookup (register T h f) k)] = _
  unfold lookup register
  by_cases e : k = h <;> simp [e]

/-- Two goroutines look up three numbers, of which one is not registered. -/
example : ((start (fun k => if k = 5 then some (some 50) else if k = 6 then some (some 60) else none)
    ([[5, 6], [7]].map fun p => p.map Call.new)).run [0, 1, 0]).results = [(0, 5, some 50), (1, 7, none), (0, 6, some 60)] := by
  decide

end Verif.Props
