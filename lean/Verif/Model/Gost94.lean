import Verif.Model.Big
import Verif.HashAPI
/-
gost/gost341194/hash.go.  The cipher constructor `func([]byte) cipher.Block` is a parameter: `E key block` (64-bit blocks).
-/
namespace Verif.Gost94
open Verif.Spec (beNat)

/-- gost/gost341194/hash.go:18-35 `c2`, `c3`, `c4` -/
def c2 : Bytes := zeros 32
def c3 : Bytes := [
  0xff, 0x00, 0xff, 0xff, 0x00, 0x00, 0x00, 0xff,
  0xff, 0x00, 0x00, 0xff, 0x00, 0xff, 0xff, 0x00,
  0x00, 0xff, 0x00, 0xff, 0x00, 0xff, 0x00, 0xff,
  0xff, 0x00, 0xff, 0x00, 0xff, 0x00, 0xff, 0x00]
def c4 : Bytes := zeros 32

/-- gost/gost341194/hash.go:127-139 `fA` -/
def fA (i : Bytes) : Bytes :=
  [at8 i (16+0) ^^^ at8 i (24+0), at8 i (16+1) ^^^ at8 i (24+1), at8 i (16+2) ^^^ at8 i (24+2), at8 i (16+3) ^^^ at8 i (24+3),
   at8 i (16+4) ^^^ at8 i (24+4), at8 i (16+5) ^^^ at8 i (24+5), at8 i (16+6) ^^^ at8 i (24+6), at8 i (16+7) ^^^ at8 i (24+7)] ++ i.take 24
/-- gost/gost341194/hash.go:141-149 `fP` -/
def fP (i : Bytes) : Bytes := [
  at8 i 0, at8 i 8, at8 i 16, at8 i 24, at8 i 1, at8 i 9, at8 i 17,
  at8 i 25, at8 i 2, at8 i 10, at8 i 18, at8 i 26, at8 i 3,
  at8 i 11, at8 i 19, at8 i 27, at8 i 4, at8 i 12, at8 i 20,
  at8 i 28, at8 i 5, at8 i 13, at8 i 21, at8 i 29, at8 i 6,
  at8 i 14, at8 i 22, at8 i 30, at8 i 7, at8 i 15, at8 i 23, at8 i 31]
/-- gost/gost341194/hash.go:151-157 `fChi` -/
def fChi (i : Bytes) : Bytes :=
  [at8 i (32-2) ^^^ at8 i (32-4) ^^^ at8 i (32-6) ^^^ at8 i (32-8) ^^^ at8 i (32-32) ^^^ at8 i (32-26),
   at8 i (32-1) ^^^ at8 i (32-3) ^^^ at8 i (32-5) ^^^ at8 i (32-7) ^^^ at8 i (32-31) ^^^ at8 i (32-25)] ++ i.take 30
/-- gost/gost341194/hash.go:159-163 `blockReverse` (each turn assigns a pair at once, so source and destination may be the same) -/
def blockReverse (src : Bytes) : Bytes :=
  forLoop 0 16 (fun dst i => (dst.set i (at8 src (31 - i))).set (31 - i) (at8 src i)) src
/-- gost/gost341194/hash.go:165-169 `blockXor` -/
def blockXor (a b : Bytes) : Bytes := (List.range 32).map fun i => at8 a i ^^^ at8 b i

/-- hin[31-o], …, hin[24-o], in this order -/
def word (hin : Bytes) (o : Nat) : Bytes :=
  [at8 hin (31 - o), at8 hin (30 - o), at8 hin (29 - o), at8 hin (28 - o), at8 hin (27 - o), at8 hin (26 - o), at8 hin (25 - o), at8 hin (24 - o)]
/-- out[31-o] = s[0], …, out[24-o] = s[7] -/
def put (out s : Bytes) (o : Nat) : Bytes :=
  (((((((out.set (31 - o) (at8 s 0)).set (30 - o) (at8 s 1)).set (29 - o) (at8 s 2)).set (28 - o) (at8 s 3)).set (27 - o) (at8 s 4)).set (26 - o) (at8 s 5)).set (25 - o)
    (at8 s 6)).set (24 - o) (at8 s 7)
/-- gost/gost341194/hash.go:171-274 `step` -/
def step (E : Bytes → Bytes → Bytes) (hin m : Bytes) : Bytes :=
  let out := zeros 32
  let u := hin
  let v := m
  let k := blockXor u v
  let k := fP k
  let k := blockReverse k
  let s := E k (word hin 0)
  let out := put out s 0
  let u := blockXor (fA u) c2
  let v := fA (fA v)
  let k := blockXor u v
  let k := fP k
  let k := blockReverse k
  let s := E k (word hin 8)
  let out := put out s 8
  let u := blockXor (fA u) c3
  let v := fA (fA v)
  let k := blockXor u v
  let k := fP k
  let k := blockReverse k
  let s := E k (word hin 16)
  let out := put out s 16
  let u := blockXor (fA u) c4
  let v := fA (fA v)
  let k := blockXor u v
  let k := fP k
  let k := blockReverse k
  let s := E k (word hin 24)
  let out := put out s 24
  let out := forLoop 0 12 (fun out _ => fChi out) out
  let out := blockXor out m
  let out := fChi out
  let out := blockXor out hin
  forLoop 0 61 (fun out _ => fChi out) out

/-- gost/gost341194/hash.go:40-47 `digest` (`tmp` is written before each use) -/
structure Digest where
  E : Bytes → Bytes → Bytes
  size : U64
  hsh : Bytes
  chk : Nat
  buf : Bytes

/-- gost/gost341194/hash.go:66-76 `Reset` -/
def Digest.reset (h : Digest) : Digest := { h with size := 0, hsh := zeros 32, chk := 0, buf := [] }
/-- gost/gost341194/hash.go:49-56 `New` -/
def new (E : Bytes → Bytes → Bytes) : Digest := Digest.reset ⟨E, 0, [], 0, []⟩

/-- gost/gost341194/hash.go:276-284 `chkAdd` -/
def Digest.chkAdd (h : Digest) (data : Bytes) : Nat :=
  let i := beNat data
  let i := i + h.chk
  if i ≥ 2 ^ 256 then i - 2 ^ 256 else i

/-- gost/gost341194/hash.go:81-87: the loop of `Write` -/
def Digest.loop : Nat → Digest → Digest
  | 0, h => h
  | fuel + 1, h =>
    if h.buf.length ≥ 32 then
      let tmp := blockReverse (h.buf.take 32)
      loop fuel { h with size := h.size + 32 * 8, chk := h.chkAdd tmp, buf := h.buf.drop 32, hsh := step h.E h.hsh tmp }
    else h
/-- gost/gost341194/hash.go:78-90 `Write` -/
def Digest.write (h : Digest) (data : Bytes) : Digest × Nat :=
  let h := { h with buf := h.buf ++ data }
  (h.loop (h.buf.length + 1), data.length)

/-- gost/gost341194/hash.go:99-125 `checkSum` -/
def Digest.checkSum (h : Digest) : Bytes :=
  let (size, chk, hsh) :=
    if h.buf.length ≠ 0 then
      let block := blockReverse (goCopy (zeros 32) 0 h.buf)
      (h.size + BitVec.ofNat 64 h.buf.length * 8, h.chkAdd block, step h.E h.hsh block)
    else (h.size, h.chk, h.hsh)
  let hsh := step h.E hsh (goCopy (zeros 32) 24 (be64 size))
  let hsh := step h.E hsh (Big.fill 32 chk)
  blockReverse hsh

/-- gost/gost341194/hash.go:58-64, 92-97 -/
def impl : HashImpl Digest where
  write h p := some (h.write p)
  sum h b := some (h, b ++ h.checkSum)
  reset := Digest.reset
  size _ := 32
  blockSize _ := 32

end Verif.Gost94
