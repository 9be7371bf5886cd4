import Verif.LoopBuf
import Verif.HashAPI
/-
Package panama: digest.go, utils.go.
-/
namespace Verif.Panama

/-- digest.go:9-17.  (The field len is never used.) -/
structure Digest where
  s : List U32
  x : Bytes
  nx : Nat
  buffer : List U32
  bufferPtr : U32

/-- digest.go:26-34 -/
def reset : Digest := { s := List.replicate 17 0, x := zeros 32, nx := 0, buffer := List.replicate 256 0, bufferPtr := 0 }

/-- utils.go:15-26 -/
def bytesToUint32s (b : Bytes) : List U32 := (List.range (b.length / 4)).map fun i => getLE32 b (i * 4)
/-- utils.go:28-39 -/
def uint32sToBytes (w : List U32) : Bytes := w.flatMap le32

/-- digest.go:152-170 -/
def gammaT (s : Nat → U32) : List U32 := [
  s 0 ^^^ (s 1 ||| ~~~ s 2),
  s 1 ^^^ (s 2 ||| ~~~ s 3),
  s 2 ^^^ (s 3 ||| ~~~ s 4),
  s 3 ^^^ (s 4 ||| ~~~ s 5),
  s 4 ^^^ (s 5 ||| ~~~ s 6),
  s 5 ^^^ (s 6 ||| ~~~ s 7),
  s 6 ^^^ (s 7 ||| ~~~ s 8),
  s 7 ^^^ (s 8 ||| ~~~ s 9),
  s 8 ^^^ (s 9 ||| ~~~ s 10),
  s 9 ^^^ (s 10 ||| ~~~ s 11),
  s 10 ^^^ (s 11 ||| ~~~ s 12),
  s 11 ^^^ (s 12 ||| ~~~ s 13),
  s 12 ^^^ (s 13 ||| ~~~ s 14),
  s 13 ^^^ (s 14 ||| ~~~ s 15),
  s 14 ^^^ (s 15 ||| ~~~ s 16),
  s 15 ^^^ (s 16 ||| ~~~ s 0),
  s 16 ^^^ (s 0 ||| ~~~ s 1)]
/-- digest.go:175-193 -/
def piT (g : Nat → U32) : List U32 := [
  g 0,
  (g 7 <<< 1) ||| (g 7 >>> (32 - 1)),
  (g 14 <<< 3) ||| (g 14 >>> (32 - 3)),
  (g 4 <<< 6) ||| (g 4 >>> (32 - 6)),
  (g 11 <<< 10) ||| (g 11 >>> (32 - 10)),
  (g 1 <<< 15) ||| (g 1 >>> (32 - 15)),
  (g 8 <<< 21) ||| (g 8 >>> (32 - 21)),
  (g 15 <<< 28) ||| (g 15 >>> (32 - 28)),
  (g 5 <<< 4) ||| (g 5 >>> (32 - 4)),
  (g 12 <<< 13) ||| (g 12 >>> (32 - 13)),
  (g 2 <<< 23) ||| (g 2 >>> (32 - 23)),
  (g 9 <<< 2) ||| (g 9 >>> (32 - 2)),
  (g 16 <<< 14) ||| (g 16 >>> (32 - 14)),
  (g 6 <<< 27) ||| (g 6 >>> (32 - 27)),
  (g 13 <<< 9) ||| (g 13 >>> (32 - 9)),
  (g 3 <<< 24) ||| (g 3 >>> (32 - 24)),
  (g 10 <<< 8) ||| (g 10 >>> (32 - 8))]
/-- digest.go:198-216 -/
def thetaT (p : Nat → U32) : List U32 := [
  p 0 ^^^ p 1 ^^^ p 4,
  p 1 ^^^ p 2 ^^^ p 5,
  p 2 ^^^ p 3 ^^^ p 6,
  p 3 ^^^ p 4 ^^^ p 7,
  p 4 ^^^ p 5 ^^^ p 8,
  p 5 ^^^ p 6 ^^^ p 9,
  p 6 ^^^ p 7 ^^^ p 10,
  p 7 ^^^ p 8 ^^^ p 11,
  p 8 ^^^ p 9 ^^^ p 12,
  p 9 ^^^ p 10 ^^^ p 13,
  p 10 ^^^ p 11 ^^^ p 14,
  p 11 ^^^ p 12 ^^^ p 15,
  p 12 ^^^ p 13 ^^^ p 16,
  p 13 ^^^ p 14 ^^^ p 0,
  p 14 ^^^ p 15 ^^^ p 1,
  p 15 ^^^ p 16 ^^^ p 2,
  p 16 ^^^ p 0 ^^^ p 3]

/-- digest.go:106-144: the two branches do the same with `q` = inData or s[1:9].  The eight pairs of statements are turns of a loop: pair k uses word (k+2) mod 8. -/
def bufferUpdate (q : Nat → U32) (ptr24 ptr31 : Nat) (buffer : List U32) : List U32 :=
  forLoop 0 8 (fun b k =>
    let i := (k + 2) % 8
    let b := b.set (ptr24 + k) (b.getD (ptr24 + k) 0 ^^^ b.getD (ptr31 + i) 0)
    b.set (ptr31 + i) (b.getD (ptr31 + i) 0 ^^^ q i)) buffer

/-- digest.go:90-248: oneStep; `data = none` for push = false. -/
def Digest.oneStep (d : Digest) (data : Option Bytes) : Digest :=
  let ptr0 := d.bufferPtr
  let ptr24 := (ptr0 - 64) &&& 248
  let ptr31 := (ptr0 - 8) &&& 248
  let inData := match data with | some b => bytesToUint32s b | none => []
  let q : Nat → U32 := fun i => if data.isSome then inData.getD i 0 else d.s.getD (i + 1) 0
  let buffer := bufferUpdate q ptr24.toNat ptr31.toNat d.buffer
  let g := gammaT fun i => d.s.getD i 0
  let p := piT fun i => g.getD i 0
  let t := thetaT fun i => p.getD i 0
  let ptr16 := ptr0 ^^^ 128
  let ptr4 := (ptr0 + 32) &&& 248
  let l : Nat → U32 := fun i => if data.isSome then inData.getD i 0 else buffer.getD (ptr4.toNat + i) 0
  let s := (t.getD 0 0 ^^^ 1) :: ((List.range 8).map fun i => t.getD (i + 1) 0 ^^^ l i) ++ ((List.range 8).map fun i => t.getD (i + 9) 0 ^^^ buffer.getD (ptr16.toNat + i) 0)
  { d with s := s, buffer := buffer, bufferPtr := ptr31 }

/-- The part of the state that oneStep changes. -/
structure Core where
  s : List U32
  buffer : List U32
  bufferPtr : U32

/-- digest.go:86-88: processBlock, called in the loop of Write with the buffer x. -/
def coreStep (c : Core) (x : Bytes) (_ : Nat) : Core :=
  let d' := Digest.oneStep { s := c.s, x := x, nx := 0, buffer := c.buffer, bufferPtr := c.bufferPtr } (some x)
  { s := d'.s, buffer := d'.buffer, bufferPtr := d'.bufferPtr }

/-- digest.go:44-64 -/
def Digest.write (d : Digest) (p : Bytes) : Digest :=
  let r := loopWrite 32 coreStep (fun c _ => c) (p.length + 1) { s := d.s, buffer := d.buffer, bufferPtr := d.bufferPtr } d.x d.nx p
  { s := r.1.s, x := r.2.1, nx := r.2.2, buffer := r.1.buffer, bufferPtr := r.1.bufferPtr }

/-- digest.go:73-88 -/
def Digest.checkSum (d : Digest) : Bytes :=
  let pad := (goCopy (zeros 32) 0 (d.x.take d.nx)).set d.nx 0x01
  let d := d.oneStep (some pad)
  let d := forLoop 0 32 (fun d _ => d.oneStep none) d
  (uint32sToBytes (d.s.drop 9)).take 32

/-- digest.go:26-71 -/
def impl : HashImpl Digest where
  write d p := some (d.write p, p.length)
  sum d b := some (d, b ++ d.checkSum)
  reset _ := reset
  size _ := 32
  blockSize _ := 32

end Verif.Panama
