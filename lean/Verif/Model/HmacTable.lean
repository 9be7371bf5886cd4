import Verif.Model.HMAC
/-
Model of the table of hash/hmac.go:69 used by several goroutines.  Neither `RegisterHmacHash` nor `HmacHash.New` takes a lock.  An
assignment to a Go map is modelled by its begin and its end; a lookup or a second assignment in between is the Go runtime's
fatal error "concurrent map read and map write" or "concurrent map writes" (the runtime detects it on a best-effort basis; an
undetected race has no defined outcome).  A lookup is one step.
-/
namespace Verif.HmacTable
open Verif.HMAC

/-- A call by a goroutine; a nil function is `none`. -/
inductive Call (φ : Type) where
  /-- hash/hmac.go:80-82 -/
  | register (h : Nat) (f : Option φ)
  /-- hash/hmac.go:71-78 -/
  | new (h : Nat)

/-- A goroutine: the assignment it is in the middle of, and the calls still to make. -/
structure Thread (φ : Type) where
  writing : Option (Nat × Option φ)
  todo : List (Call φ)

/-- The table, the goroutines, the results so far (goroutine, number, the constructor called or `none` for the panic of
hash/hmac.go:77) and whether the process has died of the fatal error. -/
structure Sys (φ : Type) where
  table : Table φ
  threads : List (Thread φ)
  results : List (Nat × Nat × Option φ)
  crashed : Bool

/-- Goroutines that have made no call yet. -/
def start {φ} (T : Table φ) (progs : List (List (Call φ))) : Sys φ :=
  { table := T, threads := progs.map fun p => ⟨none, p⟩, results := [], crashed := false }

/-- Some goroutine is in the middle of an assignment to the map. -/
def Sys.busy {φ} (s : Sys φ) : Bool := s.threads.any fun t => t.writing.isSome

/-- The next step of goroutine `i`, whose state is `t` (hash/hmac.go:71-82). -/
def Sys.stepThread {φ} (s : Sys φ) (i : Nat) (t : Thread φ) : Sys φ :=
  match t.writing, t.todo with
  | some (h, f), r => { s with table := register s.table h f, threads := s.threads.set i ⟨none, r⟩ }
  | none, [] => s
  | none, .register h f :: r =>
    if s.busy then { s with crashed := true } else { s with threads := s.threads.set i ⟨some (h, f), r⟩ }
  | none, .new h :: r =>
    if s.busy then { s with crashed := true }
    else { s with threads := s.threads.set i ⟨none, r⟩, results := s.results ++ [(i, h, lookup s.table h)] }

/-- The scheduler picks goroutine `i` (hash/hmac.go:71-82); a dead process does nothing. -/
def Sys.step {φ} (s : Sys φ) (i : Nat) : Sys φ :=
  if s.crashed then s else match s.threads[i]? with
    | none => s
    | some t => s.stepThread i t

/-- A schedule (hash/hmac.go:71-82). -/
def Sys.run {φ} (s : Sys φ) : List Nat → Sys φ
  | [] => s
  | i :: is => (s.step i).run is

end Verif.HmacTable
