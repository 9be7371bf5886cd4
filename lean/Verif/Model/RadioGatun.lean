import Verif.LoopBuf
import Verif.HashAPI
/-
Package radio_gatun: digest32.go, digest64.go.  The two files differ in the word type, the block size, the rotation amounts and the number of rounds (`Pkg`).
-/
namespace Verif.RadioGatun

structure Pkg (w : Nat) where
  /-- bytes of a word -/
  wb : Nat
  get : Bytes → Nat → BitVec w
  put : BitVec w → Bytes
  /-- The lines "aNN = (tS << L) | (tS >> R)" for NN = 01 … 18: (S, L, R).  digest32.go:242-259, 387-404, digest64.go:242-259, 387-404. -/
  rot : List (Nat × Nat × Nat)
  /-- The rounds of checkSum: digest32.go:92, digest64.go:92. -/
  num : Nat
  /-- The rounds with output: digest32.go:459, digest64.go:460. -/
  outs : Nat
def pkg32 : Pkg 32 := { wb := 4, get := fun b i => getLE32 b i, put := le32, num := 20, outs := 4, rot := [(7, 31, 1), (14, 29, 3), (2, 26, 6), (9, 22, 10), (16, 17, 15), (4, 11, 21), (11, 4, 28), (18, 28, 4), (6, 19, 13), (13, 9, 23), (1, 30, 2), (8, 18, 14), (15, 5, 27), (3, 23, 9), (10, 8, 24), (17, 24, 8), (5, 7, 25), (12, 21, 11)] }
def pkg64 : Pkg 64 := { wb := 8, get := fun b i => getLE64 b i, put := le64, num := 18, outs := 2, rot := [(7, 63, 1), (14, 61, 3), (2, 58, 6), (9, 54, 10), (16, 49, 15), (4, 43, 21), (11, 36, 28), (18, 28, 36), (6, 19, 45), (13, 9, 55), (1, 62, 2), (8, 50, 14), (15, 37, 27), (3, 23, 41), (10, 8, 56), (17, 56, 8), (5, 39, 25), (12, 21, 43)] }

/-- digest32.go:7: BlockSize32 = 156, digest64.go:7: BlockSize64 = 312 -/
def Pkg.blockSize (P : Pkg w) : Nat := 39 * P.wb

/-- digest32.go:221-239 -/
def gammaT (a : Nat → BitVec w) : List (BitVec w) := [
  a 0 ^^^ (a 1 ||| ~~~ a 2),
  a 1 ^^^ (a 2 ||| ~~~ a 3),
  a 2 ^^^ (a 3 ||| ~~~ a 4),
  a 3 ^^^ (a 4 ||| ~~~ a 5),
  a 4 ^^^ (a 5 ||| ~~~ a 6),
  a 5 ^^^ (a 6 ||| ~~~ a 7),
  a 6 ^^^ (a 7 ||| ~~~ a 8),
  a 7 ^^^ (a 8 ||| ~~~ a 9),
  a 8 ^^^ (a 9 ||| ~~~ a 10),
  a 9 ^^^ (a 10 ||| ~~~ a 11),
  a 10 ^^^ (a 11 ||| ~~~ a 12),
  a 11 ^^^ (a 12 ||| ~~~ a 13),
  a 12 ^^^ (a 13 ||| ~~~ a 14),
  a 13 ^^^ (a 14 ||| ~~~ a 15),
  a 14 ^^^ (a 15 ||| ~~~ a 16),
  a 15 ^^^ (a 16 ||| ~~~ a 17),
  a 16 ^^^ (a 17 ||| ~~~ a 18),
  a 17 ^^^ (a 18 ||| ~~~ a 0),
  a 18 ^^^ (a 0 ||| ~~~ a 1)]
/-- digest32.go:241-259 -/
def piT (P : Pkg w) (t : Nat → BitVec w) : List (BitVec w) := t 0 :: P.rot.map fun (s, l, r) => (t s <<< l) ||| (t s >>> r)
/-- digest32.go:261-299 -/
def thetaT (a : Nat → BitVec w) : List (BitVec w) := [
  a 0 ^^^ a 1 ^^^ a 4 ^^^ 1,
  a 1 ^^^ a 2 ^^^ a 5,
  a 2 ^^^ a 3 ^^^ a 6,
  a 3 ^^^ a 4 ^^^ a 7,
  a 4 ^^^ a 5 ^^^ a 8,
  a 5 ^^^ a 6 ^^^ a 9,
  a 6 ^^^ a 7 ^^^ a 10,
  a 7 ^^^ a 8 ^^^ a 11,
  a 8 ^^^ a 9 ^^^ a 12,
  a 9 ^^^ a 10 ^^^ a 13,
  a 10 ^^^ a 11 ^^^ a 14,
  a 11 ^^^ a 12 ^^^ a 15,
  a 12 ^^^ a 13 ^^^ a 16,
  a 13 ^^^ a 14 ^^^ a 17,
  a 14 ^^^ a 15 ^^^ a 18,
  a 15 ^^^ a 16 ^^^ a 0,
  a 16 ^^^ a 17 ^^^ a 1,
  a 17 ^^^ a 18 ^^^ a 2,
  a 18 ^^^ a 0 ^^^ a 3]
def millT (P : Pkg w) (a : List (BitVec w)) : List (BitVec w) :=
  let t := gammaT fun i => a.getD i 0
  let a := piT P fun i => t.getD i 0
  thetaT fun i => a.getD i 0

/-- The statement x[i] ^= v. -/
def xorAt (x : List (BitVec w)) (i : Nat) (v : BitVec w) : List (BitVec w) := x.set i (x.getD i 0 ^^^ v)

/-- digest32.go:147-219: twelve times: bj += 3; if bj == 39 { bj = 0 }; d.b[bj + j mod 3] ^= a(j+1) -/
def feed (a b : List (BitVec w)) (mk : Nat) : List (BitVec w) :=
  (forLoop 0 12 (fun (s : Nat × List (BitVec w)) j =>
    let bj := s.1 + 3
    let bj := if bj = 39 then 0 else bj
    (bj, xorAt s.2 (bj + j % 3) (a.getD (j + 1) 0))) (3 * mk, b)).2

structure Core (w : Nat) where
  a : List (BitVec w)
  b : List (BitVec w)

/-- digest32.go:126-304: one turn of the loop of processBlock. -/
def turn (P : Pkg w) (data : Bytes) (c : Core w) (k : Nat) : Core w :=
  let mk := 12 - k
  let dp := k * (3 * P.wb)
  let p0 := P.get data (dp + 0)
  let p1 := P.get data (dp + P.wb)
  let p2 := P.get data (dp + 2 * P.wb)
  let bj := if mk = 12 then 0 else 3 * (mk + 1)
  let b := xorAt (xorAt (xorAt c.b (bj + 0) p0) (bj + 1) p1) (bj + 2) p2
  let a := xorAt (xorAt (xorAt c.a 16 p0) 17 p1) 18 p2
  let b := feed a b mk
  let a := millT P a
  let bj := mk * 3
  { a := xorAt (xorAt (xorAt a 13 (b.getD (bj + 0) 0)) 14 (b.getD (bj + 1) 0)) 15 (b.getD (bj + 2) 0), b := b }
/-- digest32.go:104-326 -/
def processBlock (P : Pkg w) (c : Core w) (data : Bytes) : Core w := forLoop 0 13 (turn P data) c

/-- digest32.go:354-457: one turn of the loop of blank, without the output. -/
def blankTurn (P : Pkg w) (c : Core w) : Core w :=
  let a := c.a
  let x := xorAt c.b 0 (a.getD 1 0)
  let x := xorAt x 4 (a.getD 2 0)
  let x := xorAt x 8 (a.getD 3 0)
  let x := xorAt x 9 (a.getD 4 0)
  let x := xorAt x 13 (a.getD 5 0)
  let x := xorAt x 17 (a.getD 6 0)
  let x := xorAt x 18 (a.getD 7 0)
  let x := xorAt x 22 (a.getD 8 0)
  let x := xorAt x 26 (a.getD 9 0)
  let x := xorAt x 27 (a.getD 10 0)
  let x := xorAt x 31 (a.getD 11 0)
  let x := xorAt x 35 (a.getD 12 0)
  let a := millT P a
  let bt0 := x.getD 36 0
  let bt1 := x.getD 37 0
  let bt2 := x.getD 38 0
  { a := xorAt (xorAt (xorAt a 13 bt0) 14 bt1) 15 bt2, b := bt0 :: bt1 :: bt2 :: x.take 36 }

/-- digest32.go:328-470: blank; out is written from the front, 32 bytes in all. -/
def blank (P : Pkg w) (c : Core w) (num : Nat) : Bytes :=
  (forLoop 0 num (fun (s : Core w × Bytes) k =>
    let c := blankTurn P s.1
    (c, if num - k ≤ P.outs then s.2 ++ P.put (c.a.getD 1 0) ++ P.put (c.a.getD 2 0) else s.2)) (c, [])).2

structure Digest (w : Nat) where
  c : Core w
  x : Bytes
  nx : Nat

/-- digest32.go:29-38 (the fields s and len are never used) -/
def reset (P : Pkg w) : Digest w := { c := { a := List.replicate 19 0, b := List.replicate 39 0 }, x := zeros P.blockSize, nx := 0 }

/-- digest32.go:48-71 -/
def Digest.write (P : Pkg w) (d : Digest w) (p : Bytes) : Digest w :=
  let r := loopWrite P.blockSize (fun c x _ => processBlock P c x) (fun c _ => c) (p.length + 1) d.c d.x d.nx p
  { c := r.1, x := r.2.1, nx := r.2.2 }

/-- digest32.go:92-99: the loop that counts num down (never below 0: at most 12 turns). -/
def countBlank (P : Pkg w) : Nat → Nat → Nat → Nat
  | 0, _, num => num
  | fuel + 1, ptr, num => if ptr + 3 * P.wb > P.blockSize then num else countBlank P fuel (ptr + 3 * P.wb) (num - 1)

/-- digest32.go:80-102 -/
def Digest.checkSum (P : Pkg w) (d : Digest w) : Bytes :=
  let ptr := d.nx
  let x := d.x.set ptr 0x01
  let ptr := ptr + 1
  let x := forLoop ptr P.blockSize (fun x i => x.set i 0) x
  let c := processBlock P d.c x
  blank P c (countBlank P 14 ptr P.num)

/-- digest32.go:40-78; Size of digest64 is Size32, digest64.go:41. -/
def impl (P : Pkg w) : HashImpl (Digest w) where
  write d p := some (d.write P p, p.length)
  sum d b := some (d, b ++ d.checkSum P)
  reset _ := reset P
  size _ := 32
  blockSize _ := P.blockSize

end Verif.RadioGatun
