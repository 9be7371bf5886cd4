import Verif.Model.FacadeVars
/-
What the theorems on facade variables speak of.
-/
namespace Verif.Spec.FacadeVars
open Verif.FacadeVars

/-- The ideal digest objects: an algorithm and the message so far. -/
def ideal {κ : Type} (S : κ → HashSpec) : HashImpl (κ × Bytes) where
  write s p := some ((s.1, s.2 ++ p), p.length)
  sum s b := some (s, b ++ (S s.1).H s.2)
  reset s := (s.1, [])
  size s := (S s.1).size
  blockSize s := (S s.1).blockSize

/-- The variables a statement names. -/
def vars {κ : Type} : Stmt κ → List Nat
  | .fromBytes dst src _ => [dst, src]
  | .fromData dst src w => [dst, src, w]
  | .fromHex dst src _ => [dst, src]
  | .edit src _ => [src]
  | .new dst src _ => [dst, src]
  | .digest dst src _ => [dst, src]
  | .write dst src _ => [dst, src]
  | .sum dst src _ => [dst, src]
  | .reset dst src => [dst, src]
  | .toBytes src => [src]
  | .error src => [src]
  | .size src => [src]
  | .blockSize src => [src]
  | .skip => []

/-- The variable a statement assigns to. -/
def target {κ : Type} : Stmt κ → Option Nat
  | .fromBytes dst _ _ | .fromData dst _ _ | .fromHex dst _ _ | .new dst _ _ | .digest dst _ _ => some dst
  | .write dst _ _ | .sum dst _ _ | .reset dst _ => some dst
  | .edit _ _ | .toBytes _ | .error _ | .size _ | .blockSize _ | .skip => none

/-- The caller modifies bytes. -/
def edits {κ : Type} : Stmt κ → Prop
  | .edit _ _ => True
  | _ => False

/-- All variables of the statement are in `A`. -/
def Within {κ : Type} (A : Nat → Prop) (c : Stmt κ) : Prop := ∀ v ∈ vars c, A v

/-- The program without the statements that are not in `A`. -/
noncomputable def mask {κ : Type} (A : Nat → Prop) (P : List (Stmt κ)) : List (Stmt κ) :=
  P.map fun c => open Classical in if Within A c then c else .skip

end Verif.Spec.FacadeVars
