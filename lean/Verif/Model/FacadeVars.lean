import Verif.Model.Facade
/-
The facade with several variables.  A `Hash` (hash/hash.go:22-31) is a value: `x := y.Write(p)` copies it.  But its field `hash` is a reference to a
digest object and its field `data` a slice, so that several variables may refer to one object and to one array of bytes.  (Facade.lean has one
chain of calls only.)

Simplifications: two slices of one array that are not the same slice are not modelled; `Sum(in)` and the digests give an array of their own; a call
that panics is recovered from by the caller, who keeps his variable.
-/
namespace Verif.FacadeVars
open Verif.Facade

/-- hash/hash.go:22-31 `Hash`: the array, the object, the error. -/
structure Val where
  data : Nat
  hash : Option Nat
  err : Option Err

/-- The arrays, the digest objects and the caller's variables.  `clock` counts the statements: what a statement makes gets its number. -/
structure St (σ : Type) where
  clock : Nat
  mem : Nat → Bytes
  obj : Nat → Option σ
  var : Nat → Val

/-- All variables hold `Hashing()` (hash/hash.go:34-41): nil slice, nil hash. -/
def start {σ} : St σ := ⟨1, fun _ => [], fun _ => none, fun _ => ⟨0, none, none⟩⟩

/-- A statement of the caller, in most cases `dst := src.Method(...)`.  `κ` names the algorithms. -/
inductive Stmt (κ : Type) where
  /-- `dst := src.FromBytes(p)`, `p` an array the caller has just made; also FromString, FromReader -/
  | fromBytes (dst src : Nat) (p : Bytes)
  /-- `dst := src.FromBytes(w.ToBytes())` -/
  | fromData (dst src w : Nat)
  /-- `dst := src.FromHexString(s)` -/
  | fromHex (dst src : Nat) (s : Bytes)
  /-- `copy(src.ToBytes(), v)`, or `copy` into the array that was given to FromBytes -/
  | edit (src : Nat) (v : Bytes)
  /-- `dst := src.NewMD5()` etc. -/
  | new (dst src : Nat) (k : κ)
  /-- `dst := src.MD5()` etc. -/
  | digest (dst src : Nat) (f : Bytes → Bytes)
  | write (dst src : Nat) (p : Bytes)
  | sum (dst src : Nat) (b : Bytes)
  | reset (dst src : Nat)
  | toBytes (src : Nat)
  | error (src : Nat)
  | size (src : Nat)
  | blockSize (src : Nat)
  /-- nothing -/
  | skip

/-- What the caller sees of a statement. -/
inductive Res where
  | done
  | bytes (b : Bytes)
  | err (e : Option Err)
  | num (n : Nat)
  | panicked
  deriving DecidableEq

def upd {α} (f : Nat → α) (i : Nat) (x : α) : Nat → α := fun k => if k = i then x else f k

/-- The object the value refers to; `none` for a nil interface. -/
def St.object {σ} (s : St σ) (v : Val) : Option (Nat × σ) := do
  let j ← v.hash
  let h ← s.obj j
  some (j, h)

/-- One statement, without the clock. -/
def St.exec {σ κ} (I : HashImpl σ) (h₀ : κ → σ) (s : St σ) : Stmt κ → St σ × Res
  /- hash/hash_from.go:9-13 -/
  | .fromBytes dst src p => ({ s with mem := upd s.mem s.clock p, var := upd s.var dst { s.var src with data := s.clock } }, .done)
  | .fromData dst src w => ({ s with var := upd s.var dst { s.var src with data := (s.var w).data } }, .done)
  /- hash/hash_from.go:40-44 -/
  | .fromHex dst src t => ({ s with mem := upd s.mem s.clock (hexDecode t).1, var := upd s.var dst { s.var src with data := s.clock, err := (hexDecode t).2 } }, .done)
  | .edit src v => ({ s with mem := upd s.mem (s.var src).data (goCopy (s.mem (s.var src).data) 0 v) }, .done)
  /- hash/md5.go:18-22 -/
  | .new dst src k => ({ s with obj := upd s.obj s.clock (some (h₀ k)), var := upd s.var dst { s.var src with hash := some s.clock } }, .done)
  /- hash/md5.go:8-15 -/
  | .digest dst src f => ({ s with mem := upd s.mem s.clock (f (s.mem (s.var src).data)), var := upd s.var dst { s.var src with data := s.clock } }, .done)
  /- hash/hash_sum.go:9-13 -/
  | .write dst src p => match s.object (s.var src) with
    | none => (s, .panicked)
    | some (j, h) => match I.write h p with
      | none => (s, .panicked)
      | some (h, _) => ({ s with obj := upd s.obj j (some h), var := upd s.var dst (s.var src) }, .done)
  /- hash/hash_sum.go:40-44 -/
  | .sum dst src b => match s.object (s.var src) with
    | none => (s, .panicked)
    | some (j, h) => match I.sum h b with
      | none => (s, .panicked)
      | some (h, d) => ({ s with obj := upd s.obj j (some h), mem := upd s.mem s.clock d, var := upd s.var dst { s.var src with data := s.clock } }, .done)
  /- hash/hash_sum.go:65-69 -/
  | .reset dst src => match s.object (s.var src) with
    | none => (s, .panicked)
    | some (j, h) => ({ s with obj := upd s.obj j (some (I.reset h)), var := upd s.var dst (s.var src) }, .done)
  /- hash/hash_to.go:14-16 -/
  | .toBytes src => (s, .bytes (s.mem (s.var src).data))
  /- the field of hash/hash.go:30 -/
  | .error src => (s, .err (s.var src).err)
  /- hash/hash_sum.go:72-74 -/
  | .size src => match s.object (s.var src) with
    | none => (s, .panicked)
    | some (_, h) => (s, .num (I.size h))
  /- hash/hash_sum.go:77-79 -/
  | .blockSize src => match s.object (s.var src) with
    | none => (s, .panicked)
    | some (_, h) => (s, .num (I.blockSize h))
  | .skip => (s, .done)

/-- One statement. -/
def St.step {σ κ} (I : HashImpl σ) (h₀ : κ → σ) (s : St σ) (c : Stmt κ) : St σ × Res :=
  let r := s.exec I h₀ c
  ({ r.1 with clock := s.clock + 1 }, r.2)

/-- A program: what the caller sees of its statements. -/
def run {σ κ} (I : HashImpl σ) (h₀ : κ → σ) : St σ → List (Stmt κ) → List Res
  | _, [] => []
  | s, c :: cs => (s.step I h₀ c).2 :: run I h₀ (s.step I h₀ c).1 cs

end Verif.FacadeVars
