import Verif.HashAPI
import Verif.LoopBuf
/-
Package cubehash (cubehash/cubehash.go, digest.go, utils.go).
-/
namespace Verif.CubeHash

/-- utils.go:47-50, 76-79: `for n := 0; n < 16; n++ { x[n+16] += x[n]; x[n] = rotl(x[n], k) }` -/
def addRot (k : Nat) (x : List U32) : List U32 :=
  forLoop 0 16 (fun x n =>
    let x := x.set (n + 16) (x.getD (n + 16) 0 + x.getD n 0)
    x.set n ((x.getD n 0).rotateLeft k)) x
/-- utils.go: `x[i], x[j] = x[j], x[i]` -/
def swap (x : List U32) (p : Nat × Nat) : List U32 :=
  let a := x.getD p.2 0
  let b := x.getD p.1 0
  (x.set p.1 a).set p.2 b
/-- utils.go: `for n := 0; n < 16; n++ { x[n] ^= x[n+16] }` -/
def xorHalf (x : List U32) : List U32 := forLoop 0 16 (fun x n => x.set n (x.getD n 0 ^^^ x.getD (n + 16) 0)) x

/-- utils.go:46-99 -/
def round (x : List U32) : List U32 :=
  let x := addRot 7 x
  let x := [(0, 8), (1, 9), (2, 10), (3, 11), (4, 12), (5, 13), (6, 14), (7, 15)].foldl swap x
  let x := xorHalf x
  let x := [(16, 18), (17, 19), (20, 22), (21, 23), (24, 26), (25, 27), (28, 30), (29, 31)].foldl swap x
  let x := addRot 11 x
  let x := [(0, 4), (1, 5), (2, 6), (3, 7), (8, 12), (9, 13), (10, 14), (11, 15)].foldl swap x
  let x := xorHalf x
  [(16, 17), (18, 19), (20, 21), (22, 23), (24, 25), (26, 27), (28, 29), (30, 31)].foldl swap x

/-- digest.go:22-34.  The numeric parameters are taken to be non-negative; the field `len` is never changed and left out. -/
structure Digest where
  s : List U32
  x : Bytes
  nx : Nat
  hs : Nat
  bs : Nat
  r : Nat
  ir : Nat
  fr : Nat

/-- digest.go:118-132 -/
def Digest.initRound (d : Digest) (r : Nat) : List U32 :=
  let x := d.s
  let x := x.set 0 (BitVec.ofNat 32 (d.hs / 8))
  let x := x.set 1 (BitVec.ofNat 32 d.bs)
  let x := x.set 2 (BitVec.ofNat 32 d.r)
  let x := forLoop 3 32 (fun (x : List U32) n => x.set n 0) x
  forLoop 0 r (fun x _ => round x) x

/-- digest.go:134-143.  Called only with bs/4 ≤ 32 in what follows (the code panics otherwise). -/
def Digest.ingest (d : Digest) (x : List U32) (p : Bytes) : List U32 :=
  let x := forLoop 0 (d.bs / 4) (fun (x : List U32) n => x.set n (x.getD n 0 ^^^ getLE32 p (n * 4))) x
  forLoop 0 d.r (fun x _ => round x) x

/-- digest.go:50-57 -/
def Digest.reset (d : Digest) : Digest := { d with s := d.initRound d.ir, x := zeros d.bs, nx := 0 }
/-- digest.go:37-48; cubehash.go:8-10 -/
def new (hs bs r ir fr : Nat) : Digest := Digest.reset { s := List.replicate 32 0, x := [], nx := 0, hs, bs, r, ir, fr }

/-- digest.go:67-90 -/
def Digest.write (d : Digest) (p : Bytes) : Digest × Nat :=
  let w := loopWrite d.bs (fun s x _ => d.ingest s x) (fun s _ => s) (p.length + 1) d.s d.x d.nx p
  ({ d with s := w.1, x := w.2.1, nx := w.2.2 }, p.length)

/-- utils.go:29-40 -/
def uint32sToBytes (w : List U32) : Bytes := forLoop 0 w.length (fun dst i => goCopy dst (i * 4) (le32 (w.getD i 0))) (zeros (w.length * 4))

/-- digest.go:99-116 -/
def Digest.checkSum (d : Digest) : Bytes :=
  let x := d.s
  let pad := zeros d.bs
  let pad := goCopy pad 0 (d.x.take d.nx)
  let pad := pad.set d.nx 0x80
  let x := d.ingest x pad
  let x := x.set 31 (x.getD 31 0 ^^^ 1)
  let x := forLoop 0 d.fr (fun x _ => round x) x
  uint32sToBytes (x.take (d.hs / 32))

/-- digest.go:59-65, 92-97 -/
def impl : HashImpl Digest where
  write d p := some (d.write p)
  sum d b := some (d, b ++ d.checkSum)
  reset := Digest.reset
  size d := d.hs / 8
  blockSize d := d.bs

/-- digest.go:165-174 -/
def marshal (d : Digest) : Bytes :=
  let buf := forLoop 0 32 (fun buf n => goCopy buf (n * 4) (le32 (d.s.getD n 0))) (zeros 129)
  let buf := buf.set 128 (BitVec.ofNat 8 d.nx)
  buf ++ d.x.take d.nx

/-- digest.go:176-196; `none` is errInvalid. -/
def unmarshal (d : Digest) (data : Bytes) : Option Digest :=
  if data.length < 128 + 1 then none
  else
    let n := (at8 data 128).toNat
    if n ≥ d.bs ∨ data.length < 128 + 1 + n then none
    else
      let s := forLoop 0 32 (fun (x : List U32) n => x.set n (getLE32 data (n * 4))) d.s
      some { d with nx := n, s := s, x := goCopy d.x 0 ((data.drop 129).take n) }

end Verif.CubeHash
