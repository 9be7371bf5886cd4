import Verif.Basic
/-
Model of hash/hash_data_set.go used by one goroutine (Verif/Model/Registry.lean has the concurrent use), with the Go map as an
association list in an order nobody may rely on, and with `All`, which hands out the map itself.
-/
namespace Verif.DataSet

/-- hash/hash_data_set.go:22 `map[N]func() M`: names and functions are numbers, `none` as a function is nil. -/
abbrev GoMap := List (Nat × Option Nat)

/-- Go's `delete(m, k)`. -/
def GoMap.delete (m : GoMap) (k : Nat) : GoMap := m.filter fun e => !(e.1 == k)

/-- Go's `m[k] = f`. -/
def GoMap.store (m : GoMap) (k : Nat) (f : Option Nat) : GoMap := (k, f) :: m.delete k

/-- Go's `v, ok := m[k]`. -/
def GoMap.load (m : GoMap) (k : Nat) : Option (Option Nat) := (m.find? fun e => e.1 == k).map (·.2)

/-- The keys of the map. -/
def GoMap.keys (m : GoMap) : List Nat := m.map (·.1)

/-- A call on the set, or a use by the caller of the map that `All` returned. -/
inductive Act where
  | add (name : Nat) (f : Option Nat)
  | remove (name : Nat)
  | clean
  | has (name : Nat)
  | get (name : Nat)
  | names
  | len
  /-- `s.All()[name] = f` -/
  | allStore (name : Nat) (f : Option Nat)
  /-- `delete(s.All(), name)` -/
  | allDelete (name : Nat)
  /-- `v, ok := s.All()[name]` -/
  | allLoad (name : Nat)

/-- What the caller observes. -/
inductive Res where
  | done
  | bool (b : Bool)
  | fn (f : Option Nat)
  | list (l : List Nat)
  | num (n : Nat)
  | entry (e : Option (Option Nat))
  deriving DecidableEq

/-- hash/hash_data_set.go:42-51 -/
def has (m : GoMap) (k : Nat) : Bool := match m.load k with
  | some _ => true
  | none => false

/-- hash/hash_data_set.go:53-62 -/
def get (m : GoMap) (k : Nat) : Option Nat := match m.load k with
  | some f => f
  | none => none

/-- hash/hash_data_set.go:74-81, the loop over the keys in the order `o` -/
def names (o : List Nat) : List Nat := o.foldl (fun l k => l ++ [k]) []

/-- hash/hash_data_set.go:91-93, the loop over the keys in the order `o` -/
def clean (m : GoMap) (o : List Nat) : GoMap := o.foldl GoMap.delete m

/-- One call (hash/hash_data_set.go:33-98).  Where the code ranges over the map, the order `o` of the keys is any. -/
inductive Step : GoMap → Act → Res → GoMap → Prop where
  /-- hash/hash_data_set.go:33-40 -/
  | add (m k f) : Step m (.add k f) .done (m.store k f)
  /-- hash/hash_data_set.go:65-72 -/
  | remove (m k) : Step m (.remove k) .done (m.delete k)
  /-- hash/hash_data_set.go:87-94 -/
  | clean (m) (o : List Nat) (h : o.Perm m.keys) : Step m .clean .done (clean m o)
  | has (m k) : Step m (.has k) (.bool (has m k)) m
  | get (m k) : Step m (.get k) (.fn (get m k)) m
  | names (m) (o : List Nat) (h : o.Perm m.keys) : Step m .names (.list (names o)) m
  /-- hash/hash_data_set.go:96-98 -/
  | len (m) : Step m .len (.num m.length) m
  /-- hash/hash_data_set.go:83-85: `All` returns the field itself -/
  | allStore (m k f) : Step m (.allStore k f) .done (m.store k f)
  | allDelete (m k) : Step m (.allDelete k) .done (m.delete k)
  | allLoad (m k) : Step m (.allLoad k) (.entry (m.load k)) m

/-- hash/hash_data_set.go:26-30: a history that begins with `NewDataSet`, the most recent call first, and the map it leaves. -/
inductive Run : List (Act × Res) → GoMap → Prop where
  | new : Run [] []
  | step {h m a r m'} : Run h m → Step m a r m' → Run ((a, r) :: h) m'

end Verif.DataSet
