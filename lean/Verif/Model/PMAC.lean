import Verif.Model.CMAC
import Verif.Lazy
/-
Model of package pmac: pmac.go, block.go, utils.go, verify.go.  The block cipher is a parameter.
-/
namespace Verif.PMAC
open Verif.CMAC (shift)

/-- pmac/utils.go:8-10 `xor(a, b)` = `subtle.XORBytes(a, a, b)` -/
def xor (a b : Bytes) : Bytes := CMAC.xorAt a 0 b

/-- pmac/block.go:39-49 `Dbl`, R = 0x87 for every size (block.go:10).  The loop over the bytes is the one of
cmac/utils.go, modelled there. -/
def dbl (b : Bytes) : Bytes :=
  let r := shift b
  r.1.set (b.length - 1) (at8 r.1 (b.length - 1) ^^^ (if r.2 = 1 then 0x87#8 else 0#8))

/-- pmac/pmac.go:105-108: `tmp[i] = tmp[i]>>1 | carry of tmp[i-1]`, from the last byte down to the second, and line
110 for the first (no carry).  Every step reads the old value of its left neighbour (`prev`). -/
def shr : Byte → Bytes → Bytes
  | _, [] => []
  | prev, x :: xs => ((x >>> 1) ||| (if prev &&& 1#8 = 1#8 then 0x80#8 else 0#8)) :: shr x xs

/-- pmac/pmac.go:102-113 -/
def lInvOf (l : Bytes) : Bytes :=
  let lastBit := at8 l (l.length - 1) &&& 1#8
  let tmp := shr 0 l
  let tmp := tmp.set 0 (at8 tmp 0 ^^^ (if lastBit = 1#8 then 0x80#8 else 0#8))
  tmp.set (l.length - 1) (at8 tmp (l.length - 1) ^^^ (if lastBit = 1#8 then 0x43#8 else 0#8))

/-- pmac/pmac.go:18-52.  `finished` is set only in the copy that `Sum` makes and is always false in the object. -/
structure Pmac where
  bs : Nat
  E : Bytes → Bytes
  l : List Bytes
  lInv : Bytes
  digest : Bytes
  offset : Bytes
  buf : Bytes
  pos : Nat
  ctr : U64
  tagsize : Nat

/-- pmac/pmac.go:90-95: `copy(d.l[i].Data, tmp.Data); tmp.Dbl()`, `n` times. -/
def table : Nat → Bytes → List Bytes
  | 0, _ => []
  | n + 1, tmp => tmp :: table n (dbl tmp)

/-- pmac/pmac.go:61-116 `NewWithTagSize`; `none` is an error. -/
def newWithTagSize (bs : Nat) (E : Bytes → Bytes) (tagsize : Int) : Option Pmac :=
  if tagsize ≤ 0 ∨ tagsize > bs then none else
  if bs = 8 ∨ bs = 16 ∨ bs = 32 ∨ bs = 64 ∨ bs = 128 then
    let l := table (2 * bs - 1) (E (zeros bs))
    some ⟨bs, E, l, lInvOf (l.getD 0 []), zeros bs, zeros bs, zeros bs, 0, 0, tagsize.toNat⟩
  else none

/-- pmac/pmac.go:119-126 `Reset` -/
def Pmac.reset (d : Pmac) : Pmac :=
  { d with digest := zeros d.digest.length, offset := zeros d.offset.length, buf := zeros d.buf.length, pos := 0, ctr := 0 }

/-- `math/bits.TrailingZeros` of a 64-bit word -/
def trailingZeros (x : U64) : Nat := ((List.range 64).find? fun i => x.getLsbD i).getD 64

/-- pmac/pmac.go:210-218 `processBuffer`; `none` is the panic of the index into the table. -/
def Pmac.processBuffer (d : Pmac) : Option Pmac :=
  match d.l[trailingZeros (d.ctr + 1)]? with
  | none => none
  | some l =>
    let offset := xor d.offset l
    let buf := d.E (xor d.buf offset)
    some { d with offset := offset, ctr := d.ctr + 1, buf := buf, digest := xor d.digest buf, pos := 0 }

/-- pmac/pmac.go:160-167, one iteration: a whole block is copied into the buffer and processed. -/
def step (d : Option Pmac) (b : Bytes) : Option Pmac :=
  match d with
  | none => none
  | some d => Pmac.processBuffer { d with buf := goCopy d.buf 0 b }

/-- pmac/pmac.go:144-156: the part of `Write` that fills the buffer. -/
def Pmac.fill (d : Pmac) (msg : Bytes) : Option Pmac × Bytes :=
  let remaining := d.bs - d.pos
  if remaining < msg.length then
    (Pmac.processBuffer { d with buf := goCopy d.buf d.pos (msg.take remaining) }, msg.drop remaining)
  else (some d, msg)

/-- pmac/pmac.go:169-172 -/
def Pmac.rest (d : Pmac) (msg : Bytes) : Pmac :=
  if 0 < msg.length then { d with buf := goCopy d.buf d.pos msg, pos := d.pos + msg.length } else d

/-- pmac/pmac.go:137-175 `Write` -/
def Pmac.write (d : Pmac) (msg : Bytes) : Option (Pmac × Nat) :=
  let f := d.fill msg
  let r := lazyLoop d.bs step f.2.length f.1 f.2
  r.1.map fun d => (d.rest r.2, msg.length)

/-- pmac/pmac.go:188-207 `checkSum`: the new contents of the digest block, which the object shares with the copy. -/
def Pmac.checkSum (d : Pmac) : Bytes :=
  d.E (if d.pos = d.bs then xor (xor d.digest d.buf) d.lInv
    else
      let x := xor d.digest (d.buf.take d.pos)
      x.set d.pos (at8 x d.pos ^^^ 0x80#8))

/-- The `hash.Hash` methods (pmac/pmac.go:119-184).  `Sum` copies the struct, but the slices `digest.Data` etc. are
shared: the digest of the object is changed. -/
def impl : HashImpl Pmac where
  write := Pmac.write
  sum d b := some ({ d with digest := d.checkSum }, b ++ d.checkSum.take d.tagsize)
  reset := Pmac.reset
  size d := d.tagsize
  blockSize d := d.bs

/-- pmac/verify.go:9-17 `Sum`; the outer option is a panic, the inner one an error. -/
def sum (msg : Bytes) (bs : Nat) (E : Bytes → Bytes) (tagsize : Int) : Option (Option Bytes) :=
  match newWithTagSize bs E tagsize with
  | none => some none
  | some h => (h.write msg).map fun r => some (r.1.checkSum.take h.tagsize)
/-- pmac/verify.go:22-29 `Verify` -/
def verify (mac msg : Bytes) (bs : Nat) (E : Bytes → Bytes) (tagsize : Int) : Option Bool :=
  (sum msg bs E tagsize).map fun s => match s with
    | none => false
    | some s => mac == s

end Verif.PMAC
