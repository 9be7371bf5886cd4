import Verif.Model.LuffaBlock
import Verif.LoopBuf
import Verif.HashAPI
/-
Model of package luffa: digest256.go, digest384.go, digest512.go, luffa.go, utils.go.  processBlock is in Model/LuffaBlock.lean.
The three digest types are the same program but for the number of arrays Vj, processBlock and the output.
-/
namespace Verif.Luffa

/-- luffa/digest256.go:147-154 (and 384, 512): the words M0 … M7, big endian (utils.go:7-9). -/
def loadM (b : Bytes) : R8 := ⟨getBE32 b 0, getBE32 b 4, getBE32 b 8, getBE32 b 12, getBE32 b 16, getBE32 b 20, getBE32 b 24, getBE32 b 28⟩

/-- luffa/digest256.go:44-67 (and 384, 512): word k of the table to Vjk, j = k / 8. -/
def loadIV (iv : List U32) (w : Nat) : List R8 :=
  (List.range w).map fun j => ⟨iv.getD (8 * j) 0, iv.getD (8 * j + 1) 0, iv.getD (8 * j + 2) 0, iv.getD (8 * j + 3) 0, iv.getD (8 * j + 4) 0, iv.getD (8 * j + 5) 0, iv.getD (8 * j + 6) 0, iv.getD (8 * j + 7) 0⟩

/-- luffa/digest256.go:11-23, digest384.go:10-22, digest512.go:10-23.  The array s is never used; left out. -/
structure Digest where
  v : List R8
  x : Bytes
  nx : Nat
  len : U64
  hs : Nat
  tmpBuf : Bytes

/-- What the three types differ in. -/
structure Cfg where
  w : Nat
  iv : List U32
  block : List R8 → R8 → List R8
  /-- the words xored for the output -/
  fold : List R8 → List U32
  /-- second output block: number of words -/
  more : Nat

/-- luffa/digest256.go:130-141 -/
def fold3 (v : List R8) : List U32 :=
  let a := reg v 0; let b := reg v 1; let c := reg v 2
  [a.v0 ^^^ b.v0 ^^^ c.v0, a.v1 ^^^ b.v1 ^^^ c.v1, a.v2 ^^^ b.v2 ^^^ c.v2, a.v3 ^^^ b.v3 ^^^ c.v3, a.v4 ^^^ b.v4 ^^^ c.v4, a.v5 ^^^ b.v5 ^^^ c.v5, a.v6 ^^^ b.v6 ^^^ c.v6, a.v7 ^^^ b.v7 ^^^ c.v7]
/-- luffa/digest384.go:130-137, 141-144 -/
def fold4 (v : List R8) : List U32 :=
  let a := reg v 0; let b := reg v 1; let c := reg v 2; let d := reg v 3
  [a.v0 ^^^ b.v0 ^^^ c.v0 ^^^ d.v0, a.v1 ^^^ b.v1 ^^^ c.v1 ^^^ d.v1, a.v2 ^^^ b.v2 ^^^ c.v2 ^^^ d.v2, a.v3 ^^^ b.v3 ^^^ c.v3 ^^^ d.v3,
   a.v4 ^^^ b.v4 ^^^ c.v4 ^^^ d.v4, a.v5 ^^^ b.v5 ^^^ c.v5 ^^^ d.v5, a.v6 ^^^ b.v6 ^^^ c.v6 ^^^ d.v6, a.v7 ^^^ b.v7 ^^^ c.v7 ^^^ d.v7]
/-- luffa/digest512.go:139-146, 150-157 -/
def fold5 (v : List R8) : List U32 :=
  let a := reg v 0; let b := reg v 1; let c := reg v 2; let d := reg v 3; let e := reg v 4
  [a.v0 ^^^ b.v0 ^^^ c.v0 ^^^ d.v0 ^^^ e.v0, a.v1 ^^^ b.v1 ^^^ c.v1 ^^^ d.v1 ^^^ e.v1, a.v2 ^^^ b.v2 ^^^ c.v2 ^^^ d.v2 ^^^ e.v2, a.v3 ^^^ b.v3 ^^^ c.v3 ^^^ d.v3 ^^^ e.v3,
   a.v4 ^^^ b.v4 ^^^ c.v4 ^^^ d.v4 ^^^ e.v4, a.v5 ^^^ b.v5 ^^^ c.v5 ^^^ d.v5 ^^^ e.v5, a.v6 ^^^ b.v6 ^^^ c.v6 ^^^ d.v6 ^^^ e.v6, a.v7 ^^^ b.v7 ^^^ c.v7 ^^^ d.v7 ^^^ e.v7]

/-- luffa/digest256.go -/
def cfg256 : Cfg := ⟨3, IV_256, block256, fold3, 0⟩
/-- luffa/digest384.go -/
def cfg384 : Cfg := ⟨4, IV_384, block384, fold4, 4⟩
/-- luffa/digest512.go -/
def cfg512 : Cfg := ⟨5, IV_512, block512, fold5, 8⟩

variable (c : Cfg)

/-- luffa/digest256.go:34-68, digest384.go:31-74, digest512.go:32-80 -/
def reset (d : Digest) : Digest := { d with v := loadIV c.iv c.w, x := zeros 32, nx := 0, len := 0, tmpBuf := zeros 32 }
/-- luffa/digest256.go:26-32, digest384.go:24-29, digest512.go:25-30.  hs is a field of digest256 only; it is the size here for the others too. -/
def newDigest (hs : Nat) : Digest := reset c { v := [], x := [], nx := 0, len := 0, hs := hs, tmpBuf := [] }

/-- luffa/digest256.go:78-101, digest384.go:84-107, digest512.go:90-113 -/
def write (d : Digest) (p : Bytes) : Digest × Nat :=
  let r := loopWrite 32 (fun v x _ => c.block v (loadM x)) (fun v _ => v) (p.length + 1) d.v d.x d.nx p
  ({ d with v := r.1, x := r.2.1, nx := r.2.2, len := d.len + BitVec.ofNat 64 p.length }, p.length)

/-- luffa/digest256.go:110-144, digest384.go:113-147, digest512.go:122-160.
The output array is filled in order; digest256 puts 8 words if hs is 32 and 7 otherwise. -/
def checkSum (d : Digest) : Bytes :=
  let ptr := d.nx
  let tmp := d.tmpBuf.set ptr 0x80
  let tmp := forLoop (ptr + 1) 32 (fun (t : Bytes) i => t.set i 0x00) tmp
  let d := (write c d (tmp.drop ptr)).1
  let tmp := forLoop 0 (ptr + 1) (fun (t : Bytes) i => t.set i 0x00) tmp
  let d := (write c d tmp).1
  if c.more = 0 then
    (if d.hs = 32 then c.fold d.v else (c.fold d.v).take 7).flatMap be32
  else
    let out := (c.fold d.v).flatMap be32
    let d := (write c d tmp).1
    out ++ ((c.fold d.v).take c.more).flatMap be32

/-- luffa/digest256.go:70-76, 103-108; digest384.go, digest512.go.  Sum works on a copy. -/
def impl : HashImpl Digest where
  write d p := some (write c d p)
  sum d b := some (d, b ++ checkSum c d)
  reset := reset c
  size d := d.hs
  blockSize _ := 32

/-- luffa/luffa.go:8-10 -/
def new224 : Digest := newDigest cfg256 28
/-- luffa/luffa.go:13-15 -/
def new256 : Digest := newDigest cfg256 32
/-- luffa/luffa.go:38-40 -/
def new384 : Digest := newDigest cfg384 48
/-- luffa/luffa.go:56-58 -/
def new512 : Digest := newDigest cfg512 64

/-- luffa/luffa.go:18-25, 28-35, 43-50, 61-68: Write then Sum on a new digest, copied to an array of the size. -/
def sumOf (d : Digest) (size : Nat) (data : Bytes) : Bytes := goCopy (zeros size) 0 (checkSum c (write c d data).1)
end Verif.Luffa
