import Verif.Lazy
/-
Model of package chaskey: digest.go, utils.go.
-/
namespace Verif.Chaskey

/-- `[4]uint32` -/
structure S where
  (v0 v1 v2 v3 : U32)
  deriving DecidableEq

/-- chaskey/digest.go:25-34 -/
structure Digest where
  s : S
  x : Bytes
  nx : Nat
  len : U64
  k1 : S
  k2 : S
  r : Nat

/-- chaskey/utils.go:34-40 `timestwo` -/
def timestwo (a : S) : S :=
  let c : U32 := if a.v3 >>> 31 = 0 then 0x00 else 0x87
  { v0 := (a.v0 <<< 1) ^^^ c
    v1 := (a.v1 <<< 1) ||| (a.v0 >>> 31)
    v2 := (a.v2 <<< 1) ||| (a.v1 >>> 31)
    v3 := (a.v3 <<< 1) ||| (a.v2 >>> 31) }

/-- chaskey/utils.go:53-66 (and 109-122), one round -/
def round (v : S) : S :=
  let v0 := v.v0 + v.v1
  let v2 := v.v2 + v.v3
  let v1 := v.v1.rotateLeft 5
  let v3 := v.v3.rotateLeft 8
  let v1 := v1 ^^^ v0
  let v3 := v3 ^^^ v2
  let v0 := v0.rotateLeft 16
  let v0 := v0 + v3
  let v2 := v2 + v1
  let v3 := v3.rotateLeft 13
  let v1 := v1.rotateLeft 7
  let v3 := v3 ^^^ v0
  let v1 := v1 ^^^ v2
  let v2 := v2.rotateLeft 16
  ⟨v0, v1, v2, v3⟩
/-- The loop of chaskey/utils.go:51-67, 107-123 -/
def permute (r : Nat) (v : S) : S := forLoop 0 r (fun v _ => round v) v
/-- `v0 ^= ..; v1 ^= ..; v2 ^= ..; v3 ^= ..` -/
def xor4 (v l : S) : S := ⟨v.v0 ^^^ l.v0, v.v1 ^^^ l.v1, v.v2 ^^^ l.v2, v.v3 ^^^ l.v3⟩
/-- Four little-endian words (chaskey/utils.go:8-19, 45-48, 82-85, 95-98). -/
def words (m : Bytes) : S := ⟨getLE32 m 0, getLE32 m 4, getLE32 m 8, getLE32 m 12⟩
/-- chaskey/utils.go:42-70 `block` -/
def block (r : Nat) (s : S) (m : Bytes) : S := permute r (xor4 s (words m))

/-- chaskey/digest.go:51-59 `Reset` -/
def reset (d : Digest) : Digest :=
  { d with s := ⟨0, 0, 0, 0⟩, x := zeros 16, nx := 0, len := 0, k1 := ⟨0, 0, 0, 0⟩, k2 := ⟨0, 0, 0, 0⟩ }
/-- chaskey/digest.go:36-49 `newDigest`, 122-128 `expandKey`; `none` is the key size error. -/
def new (key : Bytes) (rounds : Nat) : Option Digest :=
  if key.length ≠ 16 then none
  else
    let k := words key
    let k1 := timestwo k
    some { s := k, x := zeros 16, nx := 0, len := 0, k1 := k1, k2 := timestwo k1, r := rounds }

/-- chaskey/digest.go:69-95 `Write` -/
def write (d : Digest) (p : Bytes) : Digest :=
  let d := { d with len := d.len + BitVec.ofNat 64 p.length }
  let (d, p) :=
    if 0 < d.nx then
      let n := min (16 - d.nx) p.length
      let d := { d with x := goCopy d.x d.nx p, nx := d.nx + n }
      let d := if d.nx = 16 then { d with s := block d.r d.s d.x, nx := 0 } else d
      (d, p.drop n)
    else (d, p)
  let d := if 16 < p.length then { d with nx := 0 } else d
  let (s, p) := lazyLoop 16 (block d.r) p.length d.s p
  let d := { d with s := s }
  if 0 < p.length then { d with nx := min 16 p.length, x := goCopy d.x 0 p } else d

/-- chaskey/utils.go:72-133 `lastblock`; the resulting `s` (`nx` becomes 0, so the panic of
digest.go:108-110 cannot happen). -/
def lastblock (d : Digest) : S :=
  let l := if d.nx = 16 then d.k1 else d.k2
  let last := if d.nx = 16 then words d.x else words (d.x.set d.nx 1#8)
  let v := xor4 d.s last
  let v := xor4 v l
  let v := permute d.r v
  xor4 v l

/-- chaskey/digest.go:105-120 `checkSum` with `uint32sToBytes` (utils.go:21-32) -/
def checkSum (d : Digest) : Bytes :=
  let s := lastblock d
  le32 s.v0 ++ le32 s.v1 ++ le32 s.v2 ++ le32 s.v3

/-- The methods; `Sum` works on a copy (digest.go:97-102). -/
def impl : HashImpl Digest where
  write d p := some (write d p, p.length)
  sum d b := some (d, b ++ checkSum d)
  reset := reset
  size _ := 16
  blockSize _ := 16

end Verif.Chaskey
