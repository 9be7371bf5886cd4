import Verif.Basic
/-
What a caller may expect of `hash.DataSet`, written without the code: the history of the changes to
the set decides everything.
-/
namespace Spec.DataSet

/-- A change to the set of registered names. -/
inductive Change where
  | put (name : Nat) (f : Option Nat)
  | drop (name : Nat)
  | wipe

/-- What `name` is registered as after the changes `h`, the most recent change first: the most recent change that concerns the
name decides. `none`: not registered; `some none`: registered with a nil function. -/
def held : List Change → Nat → Option (Option Nat)
  | [], _ => none
  | .put k f :: h, n => if n = k then some f else held h n
  | .drop k :: h, n => if n = k then none else held h n
  | .wipe :: _, _ => none

/-- `l` lists the registered names, each of them once. -/
def Lists (h : List Change) (l : List Nat) : Prop := l.Nodup ∧ ∀ n, n ∈ l ↔ (held h n).isSome = true

end Spec.DataSet
