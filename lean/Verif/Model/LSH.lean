import Verif.Model.LSHTables
import Verif.LoopBuf
/-
Packages lsh256 and lsh512: digest.go, lsh256.go, lsh512.go.  The two digest.go differ only in the word type and in the constants collected in `Pkg`; they are
modelled once.  Line numbers a / b are those of lsh256/digest.go and lsh512/digest.go.  The scratch arrays tcv and msg are always written before they are read and
are not part of the state; the field len is never used.
-/
namespace Verif.LSH

structure Pkg (w : Nat) where
  /-- 9 / 9 -/
  numStep : Nat
  /-- 11-15 / 11-15 -/
  alphaEven : Nat
  alphaOdd : Nat
  betaEven : Nat
  betaOdd : Nat
  /-- sbox.go -/
  step : List (BitVec w)
  gamma : List Nat
  /-- 50-55 / 50-59: the switch of Reset over the digest size. -/
  iv : Nat → List (BitVec w)
  /-- 128 / 133: binary.LittleEndian.Uint32, Uint64 -/
  get : Bytes → Nat → BitVec w
  wordBytes : Nat
  /-- 107 / 111: `i>>2`, `i>>3` and `0x1f`, `0x3f` -/
  shift : Nat
  mask : Nat

/-- lsh256/digest.go, lsh256/lsh256.go:8-17 -/
def pkg256 : Pkg 32 where
  numStep := 26
  alphaEven := 29
  alphaOdd := 5
  betaEven := 1
  betaOdd := 17
  step := l256_step
  gamma := l256_gamma
  iv hs := if hs = 32 then l256_iv256 else if hs = 28 then l256_iv224 else List.replicate 16 0
  get b i := getLE32 b i
  wordBytes := 4
  shift := 2
  mask := 0x1f

/-- lsh512/digest.go, lsh512/lsh512.go:8-20 -/
def pkg512 : Pkg 64 where
  numStep := 28
  alphaEven := 23
  alphaOdd := 7
  betaEven := 59
  betaOdd := 3
  step := l512_step
  gamma := l512_gamma
  iv hs := if hs = 64 then l512_iv512 else if hs = 48 then l512_iv384 else if hs = 32 then l512_iv256 else if hs = 28 then l512_iv224 else List.replicate 16 0
  get b i := getLE64 b i
  wordBytes := 8
  shift := 3
  mask := 0x3f

variable {w : Nat}

/-- lsh256.go:17 / lsh512.go:19: BlockSize = 128, 256 -/
def Pkg.blockSize (P : Pkg w) : Nat := 32 * P.wordBytes

/-- 132-147 / 137-152: `msg[idx+l] = msg[idx+l-16] + msg[idx-back[l]]` -/
def back : List Nat := [29, 30, 32, 31, 25, 28, 27, 26, 21, 22, 24, 23, 17, 20, 19, 18]

/-- 126-149 / 131-154 -/
def msgExpansion (P : Pkg w) (inp : Bytes) : List (BitVec w) :=
  let msg := List.replicate (16 * (P.numStep + 1)) 0
  let msg := forLoop 0 32 (fun msg i => msg.set i (P.get inp (i * P.wordBytes))) msg
  forLoop 2 (P.numStep + 1) (fun msg i =>
    let idx := 16 * i
    forLoop 0 16 (fun msg l => msg.set (idx + l) (msg.getD (idx + l - 16) 0 + msg.getD (idx - back.getD l 0) 0)) msg) msg

/-- 156-160 / 162-166: vl and vr of a column. -/
def stepCol (P : Pkg w) (s msg : List (BitVec w)) (stepidx alpha beta colidx : Nat) : BitVec w × BitVec w :=
  let vl := s.getD colidx 0 ^^^ msg.getD (16 * stepidx + colidx) 0
  let vr := s.getD (colidx + 8) 0 ^^^ msg.getD (16 * stepidx + colidx + 8) 0
  let vl := (vl + vr).rotateLeft alpha ^^^ P.step.getD (8 * stepidx + colidx) 0
  let vr := (vl + vr).rotateLeft beta
  (vr + vl, vr.rotateLeft (P.gamma.getD colidx 0))

/-- 151-181 / 157-187 (tcv is written as the array the loop produces). -/
def stepFn (P : Pkg w) (msg : List (BitVec w)) (s : List (BitVec w)) (stepidx alpha beta : Nat) : List (BitVec w) :=
  let tcv := ((List.range 8).map fun c => (stepCol P s msg stepidx alpha beta c).1) ++ ((List.range 8).map fun c => (stepCol P s msg stepidx alpha beta c).2)
  [tcv.getD 6 0, tcv.getD 4 0, tcv.getD 5 0, tcv.getD 7 0, tcv.getD 12 0, tcv.getD 15 0, tcv.getD 14 0, tcv.getD 13 0,
   tcv.getD 2 0, tcv.getD 0 0, tcv.getD 1 0, tcv.getD 3 0, tcv.getD 8 0, tcv.getD 11 0, tcv.getD 10 0, tcv.getD 9 0]

/-- 113-124 / 117-129 -/
def compress (P : Pkg w) (s : List (BitVec w)) (data : Bytes) : List (BitVec w) :=
  let msg := msgExpansion P data
  let s := forLoop 0 (P.numStep / 2) (fun s i => stepFn P msg (stepFn P msg s (2 * i + 0) P.alphaEven P.betaEven) (2 * i + 1) P.alphaOdd P.betaOdd) s
  forLoop 0 16 (fun s i => s.set i (s.getD i 0 ^^^ msg.getD (16 * P.numStep + i) 0)) s

/-- 18-28 / 18-28 -/
structure Digest (w : Nat) where
  s : List (BitVec w)
  x : Bytes
  nx : Nat
  hs : Nat

/-- 45-59 / 45-63 (30-35 calls it) -/
def reset (P : Pkg w) (hs : Nat) : Digest w := { s := P.iv hs, x := zeros P.blockSize, nx := 0, hs := hs }

/-- 61-84 / 65-88 -/
def Digest.write (P : Pkg w) (d : Digest w) (p : Bytes) : Digest w :=
  let r := loopWrite P.blockSize (fun s x _ => compress P s x) (fun s _ => s) (p.length + 1) d.s d.x d.nx p
  { d with s := r.1, x := r.2.1, nx := r.2.2 }

/-- 92-111 / 96-115, and the slice of 89 / 93: digest[:d.Size()] -/
def Digest.checkSum (P : Pkg w) (d : Digest w) : Bytes :=
  let x := goCopy (d.x.set d.nx 0x80) (d.nx + 1) (zeros P.blockSize)
  let s := compress P d.s x
  let temp := (List.range 8).map fun i => s.getD i 0 ^^^ s.getD (i + 8) 0
  (List.range d.hs).map fun i => (temp.getD (i >>> P.shift) 0 >>> ((i <<< 3) &&& P.mask)).setWidth 8

/-- 37-43, 45, 61, 86 / 37-43, 45, 65, 90 -/
def impl (P : Pkg w) : HashImpl (Digest w) where
  write d p := some (d.write P p, p.length)
  sum d b := some (d, b ++ d.checkSum P)
  reset d := reset P d.hs
  size d := d.hs
  blockSize _ := P.blockSize

/-! lsh256.go:20-49, lsh512.go:22-80: the one-shot functions.  `copy(sum[:], …)` into an array of n bytes. -/
def oneShot (P : Pkg w) (hs n : Nat) (data : Bytes) : Bytes := (goCopy (zeros n) 0 (((reset P hs).write P data).checkSum P))
/-- lsh256.go:31-38 -/
def sum256_256 (data : Bytes) : Bytes := oneShot pkg256 32 32 data
/-- lsh256.go:41-48 -/
def sum256_224 (data : Bytes) : Bytes := oneShot pkg256 28 28 data
/-- lsh512.go:42-49 -/
def sum512_512 (data : Bytes) : Bytes := oneShot pkg512 64 64 data
/-- lsh512.go:52-59: `New()`, so the LSH-512 digest is copied into a shorter array. -/
def sum512_384 (data : Bytes) : Bytes := oneShot pkg512 64 48 data
/-- lsh512.go:62-69 -/
def sum512_256 (data : Bytes) : Bytes := oneShot pkg512 64 32 data
/-- lsh512.go:72-79 -/
def sum512_224 (data : Bytes) : Bytes := oneShot pkg512 64 28 data

end Verif.LSH
