import Verif.HashAPI
import Verif.Model.WhirlpoolTables
/-
Package whirlpool: digest.go, utils.go, whirlpool.go.
-/
namespace Verif.Whirlpool

/-- The tables handed to newDigest (digest.go:21-22): eight tables of 256 words, and the round constants. -/
structure Tables where
  c : List (List U64)
  rc : List U64

/-- sbox.go:539-542, 544-557; whirlpool.go:8-10 -/
def tables : Tables := { c := [C0, C1, C2, C3, C4, C5, C6, C7], rc := rc }
/-- sbox.go:1614-1628; whirlpool.go:25-27 -/
def tables0 : Tables := { c := [T0, T1, T2, T3, T4, T5, T6, T7], rc := rc0 }
/-- sbox.go:2686-2699; whirlpool.go:42-44 -/
def tables1 : Tables := { c := [A0, A1, A2, A3, A4, A5, A6, A7], rc := rc1 }

/-- digest.go:12-23 -/
structure Digest where
  s : Bytes
  x : Bytes
  nx : Nat
  len : Nat
  hash : List U64

/-- digest.go:42-50 -/
def reset : Digest := { s := zeros 32, x := zeros 64, nx := 0, len := 0, hash := List.replicate 8 0 }

def lk (t : List U64) (b : U64) : U64 := t.getD (b.setWidth 8 : Byte).toNat 0
def g (K : List U64) (i : Nat) : U64 := K.getD i 0
/-- digest.go:184-193 and 202-210: one row. -/
def row (T : Tables) (K : List U64) (i : Nat) : U64 :=
  lk (T.c.getD 0 []) (g K (i % 8) >>> 56) ^^^
  lk (T.c.getD 1 []) (g K ((i + 7) % 8) >>> 48) ^^^
  lk (T.c.getD 2 []) (g K ((i + 6) % 8) >>> 40) ^^^
  lk (T.c.getD 3 []) (g K ((i + 5) % 8) >>> 32) ^^^
  lk (T.c.getD 4 []) (g K ((i + 4) % 8) >>> 24) ^^^
  lk (T.c.getD 5 []) (g K ((i + 3) % 8) >>> 16) ^^^
  lk (T.c.getD 6 []) (g K ((i + 2) % 8) >>> 8) ^^^
  lk (T.c.getD 7 []) (g K ((i + 1) % 8))

/-- digest.go:181-215: the round r on (K, state). -/
def roundStep (T : Tables) (ks : List U64 × List U64) (r : Nat) : List U64 × List U64 :=
  let L := (List.range 8).map (row T ks.1)
  let L := L.set 0 (g L 0 ^^^ g T.rc r)
  let K := L
  let state := (List.range 8).map fun i => row T ks.2 i ^^^ g K (i % 8)
  (K, state)

/-- utils.go:7-18 -/
def words (x : Bytes) : List U64 := (List.range (x.length / 8)).map fun i => getBE64 x (i * 8)
/-- utils.go:20-31 -/
def bytes (w : List U64) : Bytes := w.flatMap be64

/-- digest.go:162-220 -/
def transform (T : Tables) (hash : List U64) (x : Bytes) : List U64 :=
  let block := words x
  let K := hash
  let state := (List.range 8).map fun i => g block i ^^^ g K i
  let ks := forLoop 1 11 (roundStep T) (K, state)
  (List.range 8).map fun i => g hash i ^^^ (g ks.2 i ^^^ g block i)

/-- digest.go:62-67, from the last byte of s to the first. -/
def tally : Bytes → U32 → U64 → Bytes
  | [], _, _ => []
  | b :: bs, carry, value =>
    if carry ≠ 0 ∨ value ≠ 0 then
      let carry := carry + (b.setWidth 32 + (value &&& 0xff).setWidth 32)
      carry.setWidth 8 :: tally bs (carry >>> 8) (value >>> 8)
    else b :: bs

/-- digest.go:78-83, 110-115 -/
def flush (T : Tables) (d : Digest) : Digest :=
  if d.len = 8 * 64 then { d with hash := transform T d.hash d.x, len := 0, nx := 0 } else d

/-- digest.go:69-91: `for sourceBits > 8`, while there are two bytes left.  Also returns the bytes that are left.  The two 8-bit shifts by sourceGap (which is 0,
because the number of bits is a multiple of 8) are written for gap = 0: p << 0 and p' >> 8 = 0. -/
def writeLoop (T : Tables) (bufferRem : Nat) : Bytes → Digest → Digest × Bytes
  | b :: b' :: rest, d =>
    let b32 : U32 := ((b <<< 0) ||| (b' >>> 8)).setWidth 32
    let d := { d with x := d.x.set d.nx (at8 d.x d.nx ||| (b32 >>> bufferRem).setWidth 8), nx := d.nx + 1, len := d.len + (8 - bufferRem) }
    let d := flush T d
    let d := { d with x := d.x.set d.nx ((b32 <<< (8 - bufferRem)).setWidth 8), len := d.len + bufferRem }
    writeLoop T bufferRem (b' :: rest) d
  | p, d => (d, p)

/-- digest.go:93-117: the last byte, if any. -/
def writeEnd (T : Tables) (bufferRem : Nat) (p : Bytes) (d : Digest) : Digest :=
  let sourceBits := 8 * p.length
  let b32 : U32 := if sourceBits > 0 then (at8 p 0 <<< 0).setWidth 32 else 0
  let d := if sourceBits > 0 then { d with x := d.x.set d.nx (at8 d.x d.nx ||| (b32.setWidth 8 : Byte) >>> bufferRem) } else d
  if bufferRem + sourceBits < 8 then { d with len := d.len + sourceBits } else
  let d := { d with nx := d.nx + 1, len := d.len + (8 - bufferRem) }
  let sourceBits := sourceBits - (8 - bufferRem)
  let d := flush T d
  { d with x := d.x.set d.nx ((b32 <<< (8 - bufferRem)).setWidth 8), len := d.len + sourceBits }

/-- digest.go:51-120.  uint64(nn*8) is reduced modulo 2^64; only that many bits are taken from p. -/
def Digest.write (T : Tables) (d : Digest) (p : Bytes) : Digest :=
  let sourceBits := 8 * p.length % 2 ^ 64
  let bufferRem := d.len % 8
  let d := { d with s := (tally d.s.reverse 0 (BitVec.ofNat 64 sourceBits)).reverse }
  let r := writeLoop T bufferRem (p.take (sourceBits / 8)) d
  writeEnd T bufferRem r.2 r.1

/-- digest.go:129-160.  The loops of stores at 135-137, 146-148 and 152-154 are copies. -/
def Digest.checkSum (T : Tables) (d : Digest) : Bytes :=
  let x := d.x.set d.nx (at8 d.x d.nx ||| (0x80 : Byte) >>> (d.len % 8))
  let nx := d.nx + 1
  let (x, nx, hash) :=
    if nx > 64 - 32 then
      let x := if nx < 64 then goCopy x nx (zeros (64 - nx)) else x
      (x, 0, transform T d.hash x)
    else (x, nx, d.hash)
  let x := if nx < 64 - 32 then goCopy x nx (zeros (64 - 32 - nx)) else x
  let x := goCopy x 32 d.s
  let hash := transform T hash x
  (bytes hash).take 64

/-- digest.go:34-40, 42, 51, 122-127. -/
def impl (T : Tables) : HashImpl Digest where
  write d p := some (d.write T p, p.length)
  sum d b := some (d, b ++ d.checkSum T)
  reset _ := reset
  size _ := 64
  blockSize _ := 64

end Verif.Whirlpool
