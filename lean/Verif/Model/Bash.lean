import Verif.Basic
import Verif.HashAPI
/-
Package bash.
-/
namespace Verif.Bash

/-- bash/sbox.go:3-28 -/
def bash_rc : List U64 :=
  [0x3bf5080ac8ba94b1, 0xc1d1659c1bbd92f6, 0x60e8b2ce0ddec97b, 0xec5fb8fe790fbc13, 0xaa043de6436706a7, 0x8929ff6a5e535bfd,
   0x98bf1e2c50c97550, 0x4c5f8f162864baa8, 0x262fc78b14325d54, 0x1317e3c58a192eaa, 0x098bf1e2c50c9755, 0xd8ee19681d669304,
   0x6c770cb40eb34982, 0x363b865a0759a4c1, 0xc73622b47c4c0ace, 0x639b115a3e260567, 0xede6693460f3da1d, 0xaad8d5034f9935a0,
   0x556c6a81a7cc9ad0, 0x2ab63540d3e64d68, 0x155b1aa069f326b4, 0x0aad8d5034f9935a, 0x0556c6a81a7cc9ad, 0xde8082cd72debc78]
/-- bash/sbox.go:30-39 -/
def bash_rot : List (List Nat) :=
  [[8, 53, 14, 1], [56, 51, 34, 7], [8, 37, 46, 49], [56, 3, 2, 23], [8, 21, 14, 33], [56, 19, 34, 39], [8, 5, 46, 17], [56, 35, 2, 55]]

/-- bash/utils.go:21-32 -/
def bytesToUint64s (b : Bytes) : List U64 := (List.range (b.length / 8)).map (fun i => getBE64 b (8 * i))
/-- bash/utils.go:34-45 -/
def uint64sToBytes (w : List U64) : Bytes := w.flatMap be64
/-- bash/utils.go:47-57; a Go shift by at least the width gives 0, as here. -/
def BASH_ROTHI (x : U64) (y : Nat) : U64 := if y < 64 ∧ y > 0 then x <<< y ||| x >>> (64 - y) else x
/-- bash/utils.go:59-74 -/
def BASH_L3_S3 (W0 W1 W2 : U64) (m1 n1 m2 n2 : Nat) : U64 × U64 × U64 :=
  let T0 := BASH_ROTHI W0 m1
  let W0 := W0 ^^^ W1 ^^^ W2
  let T1 := W1 ^^^ BASH_ROTHI W0 n1
  let W1 := T0 ^^^ T1
  let W2 := W2 ^^^ BASH_ROTHI W2 m2 ^^^ BASH_ROTHI T1 n2
  let T0 := ~~~W2
  let T1 := W0 ||| W2
  let T2 := W0 &&& W1
  let T0 := T0 ||| W1
  let W1 := W1 ^^^ T1
  let W2 := W2 ^^^ T2
  let W0 := W0 ^^^ T0
  (W0, W1, W2)
/-- bash/utils.go:76-88 -/
def BASH_PERMUTE (S : List U64) : List U64 :=
  [S.getD 15 0, S.getD 10 0, S.getD 9 0, S.getD 12 0, S.getD 11 0, S.getD 14 0, S.getD 13 0, S.getD 8 0, S.getD 17 0, S.getD 16 0, S.getD 19 0, S.getD 18 0,
   S.getD 21 0, S.getD 20 0, S.getD 23 0, S.getD 22 0, S.getD 6 0, S.getD 3 0, S.getD 0 0, S.getD 5 0, S.getD 2 0, S.getD 7 0, S.getD 4 0, S.getD 1 0]
/-- bash/utils.go:90-94 -/
def SWAP64 (A : U64) : U64 :=
  A <<< 56 ||| (A &&& 0xff00) <<< 40 ||| (A &&& 0xff0000) <<< 24 ||| (A &&& 0xff000000) <<< 8 ||| (A >>> 8 &&& 0xff000000) |||
    (A >>> 24 &&& 0xff0000) ||| (A >>> 40 &&& 0xff00) ||| A >>> 56
/-- bash/utils.go:107-116: the S-box on all columns. -/
def columns (S : List U64) : List U64 :=
  forLoop 0 8 (fun (S : List U64) v =>
    let r := bash_rot.getD v []
    let W := BASH_L3_S3 (S.getD v 0) (S.getD (v + 8) 0) (S.getD (v + 16) 0) (r.getD 0 0) (r.getD 1 0) (r.getD 2 0) (r.getD 3 0)
    ((S.set v W.1).set (v + 8) W.2.1).set (v + 16) W.2.2) S
/-- bash/utils.go:96-127 with bigend = true (the only use). -/
def BASHF (S : List U64) : List U64 :=
  let S := S.map SWAP64
  let S := forLoop 0 24 (fun S round =>
    let S := columns S
    let S := BASH_PERMUTE S
    S.set 23 (S.getD 23 0 ^^^ bash_rc.getD round 0)) S
  S.map SWAP64

/-- bash/digest.go:16-23 -/
structure Digest where
  s : List U64
  x : Bytes
  nx : Nat
  len : U64
  hs : Int
  bs : Int

/-- bash/digest.go:46-57 -/
def Digest.reset (d : Digest) : Digest :=
  let state := uint64sToBytes (List.replicate 24 0)
  let state := state.set 184 (BitVec.ofInt 8 d.hs)
  { d with x := zeros 192, nx := 0, len := 0, s := bytesToUint64s state }

/-- bash/digest.go:26-44; `none` is the error. -/
def newDigest (hashsize : Int) : Option Digest :=
  if hashsize = 0 then none
  else if hashsize.tmod 8 > 0 then none
  else if hashsize > 512 then none
  else
    let hs := hashsize.tdiv 8
    some (Digest.reset { s := [], x := [], nx := 0, len := 0, hs := hs, bs := 192 - 2 * hs })

/-- bash/digest.go:111-120: all 24 words of the buffer are added. -/
def processBlock (s : List U64) (data : Bytes) : List U64 :=
  let state := bytesToUint64s data
  BASHF ((List.range 24).map (fun k => s.getD k 0 ^^^ state.getD k 0))

/-- bash/digest.go:74-88: the loop of Write; `none` is the panic of the slice expression d.x[d.nx:].  The fuel is the number of iterations at most. -/
def writeLoop (bs : Int) : Nat → List U64 → Bytes → Nat → Bytes → Option (List U64 × Bytes × Nat)
  | 0, s, x, nx, _ => some (s, x, nx)
  | fuel + 1, s, x, nx, p =>
    if nx > x.length then none
    else if (nx : Int) + p.length ≥ bs then
      let x := goCopy x nx p
      let s := processBlock s x
      writeLoop bs fuel s x 0 (p.drop (bs - nx).toNat)
    else some (s, goCopy x nx p, nx + p.length)

/-- bash/digest.go:67-90 -/
def Digest.write (d : Digest) (p : Bytes) : Option (Digest × Nat) :=
  match writeLoop d.bs (p.length + 2) d.s d.x d.nx p with
  | none => none
  | some w => some ({ d with s := w.1, x := w.2.1, nx := w.2.2, len := d.len + BitVec.ofNat 64 p.length }, p.length)

/-- bash/digest.go:99-109; `none`: an index out of range or state[:hs] with a negative hs. -/
def Digest.checkSum (d : Digest) : Option Bytes :=
  if d.nx ≥ d.x.length then none
  else
    let x := goCopy d.x d.nx (zeros d.bs.toNat)
    let x := x.set d.nx 0x40
    let s := processBlock d.s x
    if d.hs < 0 then none else some ((uint64sToBytes s).take d.hs.toNat)

/-- bash/digest.go:59-65, 92-97, 122-137 -/
def impl : HashImpl Digest where
  write := Digest.write
  sum d b := match d.checkSum with
    | none => none
    | some h => some (d, b ++ h)
  reset := Digest.reset
  size d := d.hs.toNat
  blockSize d := d.bs.toNat

end Verif.Bash
