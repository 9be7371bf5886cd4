import Verif.Model.Facade
import Verif.Model.Registry
import Verif.Model.OneShot
/-
Model of the plug-in algorithms: what a package such as hash/hashing/esch does when it is loaded
(`TypeMode.Generate`, `TypeMode.Names().Add`, `UseHash.Add`), `Mode.String`, and the two algorithms of
hash/hashing/esch.  Package initialisation runs in one goroutine; the concurrent behaviour of the
tables is in Registry.lean.
-/
namespace Verif.Plugin
open Verif.Facade

/-- The process-wide tables: `TypeMode.max`, `TypeMode.names` (what the stored function returns),
`UseHash` (what the stored function returns). -/
structure Tables (σ : Type) where
  max : U64
  names : U64 → Option Bytes
  use : U64 → Option (Algo σ)

/-- hash/hash_use.go:10, :42: before any plug-in. -/
def initial {σ} : Tables σ := { max := Registry.maxMode, names := fun _ => none, use := fun _ => none }

/-- hash/hashing/esch/esch256.go:25-35: `var X = TypeMode.Generate()` and `init`. -/
def load {σ} (s : Tables σ) (p : Bytes × Algo σ) : Tables σ :=
  let (id, max) := Registry.generate s.max
  { max := max
    names := fun k => if k = id then some p.1 else s.names k
    use := fun k => if k = id then some p.2 else s.use k }

/-- Several plug-ins in the order in which they are initialised. -/
def loadAll {σ} (s : Tables σ) (ps : List (Bytes × Algo σ)) : Tables σ := ps.foldl load s

/-- hash/hash_use.go:15-24 `Mode.String` (`int(this)` is the two's complement value). -/
def modeString {σ} (s : Tables σ) (m : U64) : Bytes :=
  match s.names m with
  | some n => n
  | none => ascii "unknown mode value " ++ ascii (toString m.toInt)

/-- The table as the facade's calls read it (Facade.lean names the modes by numbers). -/
def reg {σ} (s : Tables σ) (n : Nat) : Option (Algo σ) := s.use (BitVec.ofNat 64 n)

/-- An object of package esch behind the interface: the digest and its `hashsize`. -/
abbrev Obj := Nat × Esch.Digest
/-- The methods of `*digest` of package esch on such objects. -/
def objImpl : HashImpl Obj where
  write s p := ((Esch.impl s.1).write s.2 p).map fun r => ((s.1, r.1), r.2)
  sum s b := ((Esch.impl s.1).sum s.2 b).map fun r => ((s.1, r.1), r.2)
  reset s := (s.1, (Esch.impl s.1).reset s.2)
  size s := (Esch.impl s.1).size s.2
  blockSize s := (Esch.impl s.1).blockSize s.2

/-- hash/hashing/esch/esch256.go:13-22: `Sum`, `New` of `ESCH256Hash`.  (`esch.Sum256` does not panic,
C126; the default stands for nothing.) -/
def esch256 : Algo Obj :=
  { sum := fun data => ((OneShot.eschSum256 data).getD [], none)
    new := ((Esch.new 256).map fun d => (256, d), none) }
/-- hash/hashing/esch/esch384.go:13-22 -/
def esch384 : Algo Obj :=
  { sum := fun data => ((OneShot.eschSum384 data).getD [], none)
    new := ((Esch.new 384).map fun d => (384, d), none) }

/-- The package hash/hashing/esch: the variables of its files in the order of their names. -/
def eschPackage : List (Bytes × Algo Obj) := [(ascii "ESCH256", esch256), (ascii "ESCH384", esch384)]

end Verif.Plugin
