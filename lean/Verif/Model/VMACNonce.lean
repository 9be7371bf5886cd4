import Verif.Model.VMAC
/-
Package vmac: who owns the nonce.  `New` (vmac.go:44) and `SetNonce` (vmac.go:94) store the slice they are given, not a copy.  The caller's
slices are therefore modelled as a memory `Nat → Bytes` (one entry per slice; two slices of one array are not modelled), and the object holds
the number of one of them.
-/
namespace Verif.VMACNonce
open Verif.VMAC

/-- The caller's nonce slices. -/
abbrev Mem := Nat → Bytes

/-- vmac/vmac.go:19-25 `digest`, with the slice that `h.nonce` refers to instead of its contents -/
structure Object where
  E : Bytes → Bytes
  nonce : Nat
  size : Int
  message : Bytes

/-- What the methods see when they read `h.nonce`. -/
def Object.view (mem : Mem) (o : Object) : Digest := ⟨o.E, mem o.nonce, o.size, o.message⟩

/-- vmac/vmac.go:27-48 `New` (after aes.NewCipher) -/
def new (E : Bytes → Bytes) (mem : Mem) (nonce : Nat) (size : Int) : Option Object :=
  if (mem nonce).length ≥ 16 then none
  else if size.tmod 8 ≠ 0 then none
  else some ⟨E, nonce, size, []⟩

/-- vmac/vmac.go:89-96 `SetNonce`; `none`: the error -/
def Object.setNonce (mem : Mem) (o : Object) (n : Nat) : Option Object :=
  if (mem n).length ≥ 16 then none else some { o with nonce := n }

/-- What a caller does: the methods of hash.Hash that matter here, SetNonce with one of his slices, and copying bytes into one of his slices. -/
inductive Call where
  | write (p : Bytes)
  | sum (b : Bytes)
  | reset
  | setNonce (n : Nat)
  | fill (n : Nat) (v : Bytes)

inductive Res where
  | wrote (n : Nat)
  | bytes (b : Bytes)
  | done
  | refused
  | panicked
  deriving DecidableEq, Repr

/-- `copy(slice n, v)` -/
def fill (mem : Mem) (n : Nat) (v : Bytes) : Mem := fun k => if k = n then goCopy (mem n) 0 v else mem k

/-- A history; vmac/vmac.go:58-71 (Reset, Write, Sum) on the object's current view -/
def run : Mem → Object → List Call → List Res
  | _, _, [] => []
  | mem, o, .write p :: cs => .wrote p.length :: run mem { o with message := o.message ++ p } cs
  | mem, o, .sum b :: cs => match (o.view mem).checkSum with
    | some s => .bytes (b ++ s) :: run mem o cs
    | none => [.panicked]
  | mem, o, .reset :: cs => .done :: run mem { o with message := [] } cs
  | mem, o, .setNonce n :: cs => match o.setNonce mem n with
    | some o => .done :: run mem o cs
    | none => .refused :: run mem o cs
  | mem, o, .fill n v :: cs => .done :: run (fill mem n v) o cs

end Verif.VMACNonce
