import Verif.Basic
/-
Model of hash/hash_data_set.go, hash/hash_type_set.go and `getHash` (hash/hash_use.go:45-54) under
concurrency.  A locked method is one atomic step (Go's sync.RWMutex is trusted); `getHash` is three
steps (Has, Get, call), as in the code.  `Names`, which iterates over the map without the lock, is
modelled by its begin and end: a map write in between is the Go runtime's fatal error "concurrent
map iteration and map write" (the runtime detects it on a best-effort basis; an undetected race has
no defined outcome).  `Len` and `All` are in Verif/Model/DataSet.lean, without concurrency.
-/
namespace Verif.Registry

/-- A method call on the shared `DataSet` (hash/hash_data_set.go).  Names and functions are numbers;
`none` as a function is Go's nil. -/
inductive Call where
  /-- hash/hash_data_set.go:33-40 -/
  | add (name : Nat) (f : Option Nat)
  /-- hash/hash_data_set.go:65-72 -/
  | remove (name : Nat)
  /-- hash/hash_data_set.go:87-94 -/
  | clean
  /-- hash/hash_data_set.go:42-51 -/
  | has (name : Nat)
  /-- hash/hash_data_set.go:53-62 -/
  | get (name : Nat)
  /-- hash/hash_use.go:45-54 -/
  | getHash (name : Nat)
  /-- hash/hash_data_set.go:74-81 -/
  | names
  deriving DecidableEq

/-- Where a goroutine is inside its current call. -/
inductive Pc where
  | idle
  /-- `getHash` saw `Has(name)` return true (hash/hash_use.go:46) -/
  | afterHas (name : Nat)
  /-- `getHash` holds the result of `Get(name)` and is about to call it (hash/hash_use.go:51-53) -/
  | afterGet (name : Nat) (f : Option Nat)
  /-- inside the range loop of `Names` (hash/hash_data_set.go:76-78) -/
  | iterating
  deriving DecidableEq

/-- A result a caller observes. -/
inductive Res where
  | hasR (name : Nat) (b : Bool)
  | getR (name : Nat) (f : Option Nat)
  /-- `getHash` returned an error -/
  | unknown (name : Nat)
  /-- `getHash` called the function `f` and returned its result -/
  | called (name : Nat) (f : Nat)
  deriving DecidableEq

/-- A goroutine: where it is and the calls it has still to make. -/
structure Thread where
  pc : Pc
  todo : List Call

/-- The shared map, the goroutines, the results so far and whether the process has crashed. -/
structure Sys where
  map : Nat → Option (Option Nat)
  threads : List Thread
  results : List Res
  crashed : Bool

/-- Goroutines that have made no call yet, and an empty map (`NewDataSet`, hash/hash_data_set.go:26-30). -/
def start (progs : List (List Call)) : Sys :=
  { map := fun _ => none, threads := progs.map fun p => { pc := .idle, todo := p }, results := [], crashed := false }

/-- Goroutine `i` becomes `t`. -/
def Sys.put (s : Sys) (i : Nat) (t : Thread) : Sys := { s with threads := s.threads.set i t }

/-- Some goroutine is inside the range loop of `Names`. -/
def Sys.iterated (s : Sys) : Bool := s.threads.any fun t => decide (t.pc = .iterating)

/-- A map write by goroutine `i` (hash/hash_data_set.go:37, 69, 92). -/
def Sys.store (s : Sys) (i : Nat) (r : List Call) (m : Nat → Option (Option Nat)) : Sys :=
  if s.iterated then { s with crashed := true }
  else { s.put i { pc := .idle, todo := r } with map := m }

/-- The next atomic step of goroutine `i` whose current state is `t`. -/
def Sys.stepThread (s : Sys) (i : Nat) (t : Thread) : Sys :=
  match t.pc with
  | .afterHas n => s.put i { t with pc := .afterGet n ((s.map n).join) }
  | .afterGet n none => { s with crashed := true }
  | .afterGet n (some f) => { s.put i { t with pc := .idle } with results := s.results ++ [.called n f] }
  | .iterating => s.put i { t with pc := .idle }
  | .idle => match t.todo with
    | [] => s
    | .add n f :: r => s.store i r (fun k => if k = n then some f else s.map k)
    | .remove n :: r => s.store i r (fun k => if k = n then none else s.map k)
    | .clean :: r => s.store i r (fun _ => none)
    | .has n :: r => { s.put i { t with todo := r } with results := s.results ++ [.hasR n (s.map n).isSome] }
    | .get n :: r => { s.put i { t with todo := r } with results := s.results ++ [.getR n ((s.map n).join)] }
    | .getHash n :: r =>
      if (s.map n).isSome then s.put i { pc := .afterHas n, todo := r }
      else { s.put i { t with todo := r } with results := s.results ++ [.unknown n] }
    | .names :: r => s.put i { pc := .iterating, todo := r }

/-- The scheduler runs goroutine `i` for one step (a crashed process does nothing). -/
def Sys.step (s : Sys) (i : Nat) : Sys :=
  if s.crashed then s else match s.threads[i]? with
  | none => s
  | some t => s.stepThread i t

/-- A schedule. -/
def Sys.exec (s : Sys) (sched : List Nat) : Sys := sched.foldl Sys.step s

/-! ### Identifiers: hash/hash_type_set.go -/

/-- `TypeSet.Generate` (hash/hash_type_set.go:29-34) for a 64-bit `uint` (or `int`, whose `++` wraps
the same way): the id and the new `max`. -/
def generate (max : U64) : U64 × U64 := (max, max + 1)

/-- `n` successive calls of `Generate`. -/
def generateN : Nat → U64 → List U64
  | 0, _ => []
  | n + 1, max => (generate max).1 :: generateN n (generate max).2

/-- `maxMode` (hash/hash_use.go:27-30), the argument of `NewTypeSet` (hash/hash_use.go:10). -/
def maxMode : U64 := 2
/-- `unknown` (hash/hash_use.go:28). -/
def unknownMode : U64 := 1

/-- A goroutine inside the unsynchronised `Generate`: nothing done, `old` read, or `max` read again
for the increment (hash/hash_type_set.go:30-31), or returned. -/
inductive GenPc where
  | start
  | read (old : U64)
  | reread (old tmp : U64)
  | done (id : U64)
  deriving DecidableEq

/-- One memory access of goroutine `i` (hash/hash_type_set.go:30-31). -/
def genStep (s : U64 × List GenPc) (i : Nat) : U64 × List GenPc :=
  match s.2[i]? with
  | some .start => (s.1, s.2.set i (.read s.1))
  | some (.read old) => (s.1, s.2.set i (.reread old s.1))
  | some (.reread old tmp) => (tmp + 1, s.2.set i (.done old))
  | _ => s

end Verif.Registry
