import Verif.HashAPI
import Mathlib.Data.Nat.Size
/-
Model of package rabin: poly.go, table.go, digest.go.  `big.Int` values (never negative here) are
natural numbers.
-/
namespace Verif.Rabin

/-- rabin/poly.go:23-25 `Degree` is `bitLen - 1`. -/
def bitLen (n : Nat) : Nat := n.size
/-- rabin/poly.go:29-35 `MulX` -/
def mulX (a n : Nat) : Nat := a <<< n
/-- rabin/poly.go:38-41 `Add`, 44-46 `Sub` -/
def add (a b : Nat) : Nat := a ^^^ b
/-- rabin/poly.go:73-99 `Mod`, for `b ≠ 0`: `i` runs down from `da - db` to 0, so there are
`bitLen a + 1 - bitLen b` iterations (none if that is negative). -/
def mod (a b : Nat) : Nat :=
  let n := bitLen a + 1 - bitLen b
  let db := bitLen b - 1
  forLoop 0 n (fun out j =>
    let i := n - 1 - j
    if out.testBit (i + db) then add out (mulX b i) else out) a

/-- rabin/table.go:11-17 -/
structure Table where
  push : List U64
  pop : List U64
  degree : Nat
  shift : Nat
  window : Int

/-- rabin/table.go:46-60, the entry `i`; `Uint64` keeps the low 64 bits. -/
def pushEntry (p i : Nat) : U64 :=
  let f := mulX i (bitLen p - 1)
  let f2 := mod f p
  let f := add f f2
  BitVec.ofNat 64 f
/-- rabin/table.go:64-69, the entry `i` -/
def popEntry (p window i : Nat) : U64 :=
  let f := mulX i ((window - 1) * 8)
  let f2 := mod f p
  BitVec.ofNat 64 f2
/-- rabin/table.go:34-73 `NewTable`; `none` is the panic. -/
def newTable (polynomial : U64) (window : Int) : Option Table :=
  let p := polynomial.toNat
  if bitLen p < 9 then none
  else some {
    push := (List.range 256).map (pushEntry p)
    pop := if 0 < window then (List.range 256).map (popEntry p window.toNat) else List.replicate 256 0
    degree := bitLen p - 1
    shift := bitLen p - 1 - 8
    window := window }

/-- rabin/table.go:116-117 (also digest.go:99-100, chunker.go:191-192) -/
def pushByte (tab : Table) (hash : U64) (b : Byte) : U64 :=
  let top : Byte := (hash >>> (tab.shift % 64)).setWidth 8
  (hash <<< 8 ||| b.setWidth 64) ^^^ tab.push.getD top.toNat 0
/-- rabin/table.go:77-121 `update` -/
def update (tab : Table) (hash : U64) (p : Bytes) : U64 := p.foldl (pushByte tab) hash

/-- rabin/digest.go:6-11; `msg = none` is the nil slice. -/
structure Digest where
  tab : Table
  hash : U64
  msg : Option Bytes
  pos : Nat

/-- rabin/digest.go:15-27 `newDigest` -/
def new (table : Table) : Digest :=
  { tab := table, hash := 0, pos := 0,
    msg := if 0 < table.window then some (zeros table.window.toNat) else none }
/-- rabin/digest.go:30-38 `Reset` -/
def reset (h : Digest) : Digest :=
  match h.msg with
  | none => { h with hash := 0 }
  | some msg => { h with hash := 0, msg := some (zeros msg.length), pos := 0 }
/-- rabin/digest.go:42-45 `Size` -/
def size (h : Digest) : Nat :=
  let bits := h.tab.degree + 1
  (bits + 7) / 8
/-- rabin/digest.go:52-58 `BlockSize` -/
def blockSize (h : Digest) : Nat :=
  match h.msg with
  | some msg => msg.length
  | none => 1
/-- rabin/digest.go:91-100, loop body; the state is `(msg, pos, hash)`. -/
def roll (tab : Table) (window : Nat) (s : Bytes × Nat × U64) (b : Byte) : Bytes × Nat × U64 :=
  let (msg, pos, hash) := s
  let pop := at8 msg pos
  let msg := msg.set pos b
  let pos := if pos + 1 = window then 0 else pos + 1
  let hash := hash ^^^ tab.pop.getD pop.toNat 0
  (msg, pos, pushByte tab hash b)
/-- rabin/digest.go:67-104 `Write` -/
def write (h : Digest) (p : Bytes) : Digest :=
  match h.msg with
  | none => { h with hash := update h.tab h.hash p }
  | some msg =>
    let window := msg.length
    if window ≤ p.length then
      let p := p.drop (p.length - window)
      { h with msg := some (goCopy msg 0 p), pos := 0, hash := update h.tab 0 p }
    else
      let (msg, pos, hash) := p.foldl (roll h.tab window) (msg, h.pos, h.hash)
      { h with msg := some msg, pos := pos, hash := hash }
/-- rabin/digest.go:115-122 `checkSum` (on a deep copy, digest.go:108-113, 129-141) -/
def checkSum (h : Digest) : Bytes :=
  ((List.range 8).map fun i => (h.hash >>> (i * 8)).setWidth 8).take (size h)
/-- rabin/digest.go:125-127 `Sum64` -/
def sum64 (h : Digest) : U64 := h.hash
/-- The methods. -/
def impl : HashImpl Digest where
  write h p := some (write h p, p.length)
  sum h b := some (h, b ++ checkSum h)
  reset := reset
  size := size
  blockSize := blockSize

end Verif.Rabin
