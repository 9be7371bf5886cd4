import Verif.Model.KupynaTables
import Verif.BufDigest
/-
Package kupyna: kupyna.go, kupyna256.go, kupyna384.go, kupyna512.go, kmac.go, kmac256.go, kmac384.go, kmac512.go, utils.go.  kupyna256.go and
kupyna512.go are the same text up to the number of columns, the unrolled functions and the constants collected in `Fns`.
-/
namespace Verif.Kupyna

/-- utils.go:15-26 -/
def bytesToUint64s (b : Bytes) : List U64 := (List.range (b.length / 8)).map fun i => getLE64 b (i * 8)
/-- utils.go:28-39 -/
def uint64sToBytes (w : List U64) : Bytes := w.flatMap le64

/-- What distinguishes kupyna256.go from kupyna512.go. -/
structure Fns where
  cols : Nat
  G : List U64 → List U64
  G1 : List U64 → U64 → List U64
  G2 : List U64 → U64 → List U64
  rounds : Nat
  block : Nat
  lenAt : Nat
  skip : Nat
/-- kupyna256.go -/
def fns256 : Fns := { cols := 8, G := G_256, G1 := G1_256, G2 := G2_256, rounds := 10, block := 64, lenAt := 52, skip := 32 }
/-- kupyna512.go -/
def fns512 : Fns := { cols := 16, G := G_512, G1 := G1_512, G2 := G2_512, rounds := 14, block := 128, lenAt := 116, skip := 64 }

variable (F : Fns)

/-- kupyna256.go:144-152, kupyna512.go:168-176; the result is the final content of x. -/
def P (x : List U64) (round : U64) : List U64 :=
  let x := forLoop 0 F.cols (fun x idx => x.set idx (g x idx ^^^ ((BitVec.ofNat 64 idx <<< 4) ^^^ round))) x
  let y := F.G1 x (round + 1)
  F.G y

/-- kupyna256.go:154-164, kupyna512.go:178-188 -/
def Q (x : List U64) (round : U64) : List U64 :=
  let r : U64 := 0x00F0F0F0F0F0F0F3
  let x := forLoop 0 F.cols (fun x j => x.set j (g x j + (r ^^^ ((((BitVec.ofNat 64 (F.cols - 1) - BitVec.ofNat 64 j) * 0x10) ^^^ round) <<< 56)))) x
  let y := F.G2 x (round + 1)
  F.G y

/-- kupyna256.go:166-180, kupyna512.go:190-204; the loop `for r = 0; r < n; r += 2` runs over r = 2i. -/
def outputTransform (s : List U64) : List U64 :=
  let t1 := forLoop 0 (F.rounds / 2) (fun t i => P F t (BitVec.ofNat 64 (2 * i))) s
  forLoop 0 F.cols (fun s c => s.set c (g s c ^^^ g t1 c)) s

/-- kupyna256.go:182-200, kupyna512.go:206-224 -/
def transform (s b : List U64) : List U64 :=
  let AP1 := forLoop 0 F.cols (fun a c => a.set c (g s c ^^^ g b c)) (List.replicate F.cols 0)
  let AQ1 := forLoop 0 F.cols (fun a c => a.set c (g b c)) (List.replicate F.cols 0)
  let A := forLoop 0 (F.rounds / 2) (fun (A : List U64 × List U64) i => (P F A.1 (BitVec.ofNat 64 (2 * i)), Q F A.2 (BitVec.ofNat 64 (2 * i)))) (AP1, AQ1)
  forLoop 0 F.cols (fun s c => s.set c (g s c ^^^ (g A.1 c ^^^ g A.2 c))) s

/-- kupyna256.go:202-204, kupyna512.go:226-228 -/
def blockFn (s : List U64) (b : Bytes) : List U64 := transform F s (bytesToUint64s b)

/-- kupyna256.go:14-19, kupyna512.go:14-19 -/
abbrev Digest := BufDigest (List U64)

/-- kupyna256.go:29-42, kupyna512.go:29-42 (New256 and New512 call it on a zero digest) -/
def reset : Digest :=
  let s1 := (zeros 8).set 0 (BitVec.ofNat 8 F.block)
  { s := (List.replicate F.cols 0).set 0 (getLE64 s1 0), x := zeros F.block, nx := 0, len := 0 }

/-- The loop `for ; len(p) >= BlockSize; p = p[BlockSize:]` of Write, kupyna256.go:66-69; block is handed all of p. -/
def blocks : Nat → List U64 → Nat → Bytes → List U64 × Nat × Bytes
  | 0, s, nx, p => (s, nx, p)
  | fuel + 1, s, nx, p => if F.block ≤ p.length then blocks fuel (blockFn F s p) 0 (p.drop F.block) else (s, nx, p)

/-- kupyna256.go:51-76, kupyna512.go:51-76 -/
def write (d : Digest) (p : Bytes) : Digest :=
  let len := d.len + BitVec.ofNat 64 p.length
  let (s, x, nx, p) :=
    if d.nx > 0 then
      let n := min (d.x.length - d.nx) p.length
      let x := goCopy d.x d.nx p
      let nx := d.nx + n
      if nx = F.block then (blockFn F d.s x, x, 0, p.drop n) else (d.s, x, nx, p.drop n)
    else (d.s, d.x, d.nx, p)
  let (s, nx, p) := blocks F p.length s nx p
  if p.length > 0 then { s := s, x := goCopy x 0 p, nx := min x.length p.length, len := len } else { s := s, x := x, nx := nx, len := len }

/-- kupyna256.go:85-108, kupyna512.go:85-108 -/
def checkSum (d : Digest) : Bytes :=
  let x := d.x.set d.nx 0x80
  let nx := d.nx + 1
  let tmp := zeros F.block
  let (s, x, nx) := if nx > F.lenAt then (blockFn F d.s (goCopy x nx tmp), goCopy x nx tmp, 0) else (d.s, x, nx)
  let x := goCopy x nx tmp
  let x := goCopy x F.lenAt (le64 (d.len * 8))
  let s := blockFn F s x
  (uint64sToBytes (outputTransform F s)).drop F.skip

/-- The methods of digest256, kupyna256.go:29-83; `size` and `cut` are those of New256, New512 and New384 (kupyna384.go:14-46, which keeps a
digest512 and drops the first 16 bytes of its sum). -/
def impl (size cut : Nat) : HashImpl Digest where
  write d p := some (write F d p, p.length)
  sum d b := some (d, b ++ (checkSum F d).drop cut)
  reset _ := reset F
  size _ := size
  blockSize _ := F.block

/-- kupyna256.go:22-83 -/
def impl256 : HashImpl Digest := impl fns256 32 0
/-- kupyna384.go:20-46 -/
def impl384 : HashImpl Digest := impl fns512 48 16
/-- kupyna512.go:22-83 -/
def impl512 : HashImpl Digest := impl fns512 64 0

/-- kupyna.go:4-11, 14-21, 24-31: New, Write, Sum(nil), copied into an array. -/
def sum (size cut : Nat) (data : Bytes) : Bytes := goCopy (zeros size) 0 ((checkSum F (write F (reset F) data)).drop cut)

/-! ## KMAC -/

/-- kmac256.go:8-12.  h is a pointer to the hash object. -/
structure Kmac where
  h : Digest
  ik : Bytes
  len : U64

/-- What distinguishes kmac256.go, kmac384.go and kmac512.go. -/
structure KFns where
  F : Fns
  size : Nat
  cut : Nat
  kpad : Bytes
/-- kmac256.go -/
def kfns256 : KFns := { F := fns256, size := 32, cut := 0, kpad := kpad32 }
/-- kmac384.go -/
def kfns384 : KFns := { F := fns512, size := 48, cut := 16, kpad := kpad48 }
/-- kmac512.go -/
def kfns512 : KFns := { F := fns512, size := 64, cut := 0, kpad := kpad64 }

variable (V : KFns)

/-- kmac256.go:15-37 (NewKmac256 and init) and the same lines of kmac384.go, kmac512.go; `none` is the KeySizeError. -/
def newKmac (key : Bytes) : Option Kmac :=
  if key.length ≠ V.size then none
  else
    let h := write V.F (write V.F (reset V.F) key) V.kpad
    let ik := forLoop 0 V.size (fun ik i => ik.set i (~~~ at8 key i)) (zeros V.size)
    some { h := h, ik := ik, len := 0 }

/-- kmac256.go:51-54 -/
def Kmac.write (d : Kmac) (p : Bytes) : Kmac := { d with len := d.len + BitVec.ofNat 64 p.length, h := Kupyna.write V.F d.h p }

/-- kmac256.go:63-83: the hash object after the writes of checkSum, and the tag. -/
def Kmac.checkSum (d : Kmac) : Digest × Bytes :=
  let n := d.len
  let lim := BitVec.ofNat 64 V.F.lenAt
  let padSize : U64 := if n < lim then lim - 1 - n else BitVec.ofNat 64 (V.F.block - 1) - ((n - lim) % BitVec.ofNat 64 V.F.block)
  let n := n * 8
  let h := Kupyna.write V.F d.h (dpad.take (padSize + 1).toNat)
  let h := Kupyna.write V.F h (uint64sToBytes [n])
  let h := Kupyna.write V.F h ((dpad.drop 16).take 4)
  let h := Kupyna.write V.F h d.ik
  (h, (Kupyna.checkSum V.F h).drop V.cut)

/-- The methods, kmac256.go:39-61.  Sum copies the kmac256 structure, but the copy holds the same pointer h: what checkSum writes to it stays. -/
def kmacImpl : HashImpl Kmac where
  write d p := some (d.write V p, p.length)
  sum d b := some ({ d with h := (d.checkSum V).1 }, b ++ (d.checkSum V).2)
  reset d := { d with h := reset V.F }
  size _ := V.size
  blockSize _ := V.F.block

/-- kmac.go:15-27 -/
def newKmacAny (key : Bytes) : Option (KFns × Kmac) :=
  if key.length = 32 then (newKmac kfns256 key).map (kfns256, ·)
  else if key.length = 48 then (newKmac kfns384 key).map (kfns384, ·)
  else if key.length = 64 then (newKmac kfns512 key).map (kfns512, ·)
  else none

end Verif.Kupyna
