import Verif.BufDigest
/-
Model of package sm3: digest.go, block.go (the generic block function), utils.go, sbox.go and
binary.go.  Not modelled: the assembly variants of the block function, rand*.go.
-/
namespace Verif.SM3

/-- sm3/sbox.go:3-6 -/
def iv : List U32 := [0x7380166F#32, 0x4914B2B9#32, 0x172442D7#32, 0xDA8A0600#32,
  0xA96F30BC#32, 0x163138AA#32, 0xE38DEE4D#32, 0xB0FB0E4E#32]

/-- sm3/sbox.go:8-25 -/
def tSbox : List U32 :=
  [0x79cc4519#32, 0xf3988a32#32, 0xe7311465#32, 0xce6228cb#32, 0x9cc45197#32, 0x3988a32f#32, 0x7311465e#32, 0xe6228cbc#32,
  0xcc451979#32, 0x988a32f3#32, 0x311465e7#32, 0x6228cbce#32, 0xc451979c#32, 0x88a32f39#32, 0x11465e73#32, 0x228cbce6#32,
  0x9d8a7a87#32, 0x3b14f50f#32, 0x7629ea1e#32, 0xec53d43c#32, 0xd8a7a879#32, 0xb14f50f3#32, 0x629ea1e7#32, 0xc53d43ce#32,
  0x8a7a879d#32, 0x14f50f3b#32, 0x29ea1e76#32, 0x53d43cec#32, 0xa7a879d8#32, 0x4f50f3b1#32, 0x9ea1e762#32, 0x3d43cec5#32,
  0x7a879d8a#32, 0xf50f3b14#32, 0xea1e7629#32, 0xd43cec53#32, 0xa879d8a7#32, 0x50f3b14f#32, 0xa1e7629e#32, 0x43cec53d#32,
  0x879d8a7a#32, 0x0f3b14f5#32, 0x1e7629ea#32, 0x3cec53d4#32, 0x79d8a7a8#32, 0xf3b14f50#32, 0xe7629ea1#32, 0xcec53d43#32,
  0x9d8a7a87#32, 0x3b14f50f#32, 0x7629ea1e#32, 0xec53d43c#32, 0xd8a7a879#32, 0xb14f50f3#32, 0x629ea1e7#32, 0xc53d43ce#32,
  0x8a7a879d#32, 0x14f50f3b#32, 0x29ea1e76#32, 0x53d43cec#32, 0xa7a879d8#32, 0x4f50f3b1#32, 0x9ea1e762#32, 0x3d43cec5#32]

/-- sm3/utils.go:16-18 -/
def ROTL (x : U32) (n : Nat) : U32 := x.rotateLeft n
/-- sm3/utils.go:20-22 -/
def P0 (x : U32) : U32 := x ^^^ ROTL x 9 ^^^ ROTL x 17
/-- sm3/utils.go:24-26 -/
def P1 (x : U32) : U32 := x ^^^ ROTL x 15 ^^^ ROTL x 23
/-- sm3/utils.go:28-30 -/
def FF00 (x y z : U32) : U32 := x ^^^ y ^^^ z
/-- sm3/utils.go:32-34 -/
def FF16 (x y z : U32) : U32 := (x &&& y) ||| (x &&& z) ||| (y &&& z)
/-- sm3/utils.go:36-38 -/
def GG00 (x y z : U32) : U32 := x ^^^ y ^^^ z
/-- sm3/utils.go:40-42 -/
def GG16 (x y z : U32) : U32 := ((y ^^^ z) &&& x) ^^^ z

/-- The local array `W` of blockGeneric, sm3/block.go:4 and 18-25.
Go array accesses are `getD`/`set`; every index is in range. -/
def expand (data : Bytes) : List U32 :=
  let W := List.replicate 68 0#32
  let W := forLoop 0 16 (fun W j => W.set j (getBE32 data (j*4))) W
  forLoop 16 68 (fun W j => W.set j
    (P1 (W.getD (j-16) 0 ^^^ W.getD (j-9) 0 ^^^ ROTL (W.getD (j-3) 0) 15)
      ^^^ ROTL (W.getD (j-13) 0) 7 ^^^ W.getD (j-6) 0)) W

/-- The local variables `A .. H` of blockGeneric, sm3/block.go:9-16. -/
structure Vars where
  (A B C D E F G H : U32)

/-- One iteration of the first loop, sm3/block.go:27-42. -/
def body0 (W : List U32) (v : Vars) (j : Nat) : Vars :=
  let SS1 := ROTL (ROTL v.A 12 + v.E + tSbox.getD j 0) 7
  let SS2 := SS1 ^^^ ROTL v.A 12
  let TT1 := FF00 v.A v.B v.C + v.D + SS2 + (W.getD j 0 ^^^ W.getD (j+4) 0)
  let TT2 := GG00 v.E v.F v.G + v.H + SS1 + W.getD j 0
  { D := v.C, C := ROTL v.B 9, B := v.A, A := TT1, H := v.G, G := ROTL v.F 19, F := v.E, E := P0 TT2 }

/-- One iteration of the second loop, sm3/block.go:44-59. -/
def body16 (W : List U32) (v : Vars) (j : Nat) : Vars :=
  let SS1 := ROTL (ROTL v.A 12 + v.E + tSbox.getD j 0) 7
  let SS2 := SS1 ^^^ ROTL v.A 12
  let TT1 := FF16 v.A v.B v.C + v.D + SS2 + (W.getD j 0 ^^^ W.getD (j+4) 0)
  let TT2 := GG16 v.E v.F v.G + v.H + SS1 + W.getD j 0
  { D := v.C, C := ROTL v.B 9, B := v.A, A := TT1, H := v.G, G := ROTL v.F 19, F := v.E, E := P0 TT2 }

/-- sm3/block.go:3-69 `blockGeneric`: the new `d.s`. -/
def block (s : List U32) (data : Bytes) : List U32 :=
  let W := expand data
  let v : Vars := { A := s.getD 0 0, B := s.getD 1 0, C := s.getD 2 0, D := s.getD 3 0,
                    E := s.getD 4 0, F := s.getD 5 0, G := s.getD 6 0, H := s.getD 7 0 }
  let v := forLoop 0 16 (body0 W) v
  let v := forLoop 16 64 (body16 W) v
  [s.getD 0 0 ^^^ v.A, s.getD 1 0 ^^^ v.B, s.getD 2 0 ^^^ v.C, s.getD 3 0 ^^^ v.D,
   s.getD 4 0 ^^^ v.E, s.getD 5 0 ^^^ v.F, s.getD 6 0 ^^^ v.G, s.getD 7 0 ^^^ v.H]

/-- sm3/digest.go:10-15 -/
abbrev Digest := BufDigest (List U32)

/-- sm3/digest.go:23-29 `Reset` -/
def reset (_ : Digest) : Digest := { s := iv, x := zeros 64, nx := 0, len := 0 }

/-- sm3/digest.go:17-21 `newDigest`, sm3/sm3.go:8-10 `New` -/
def new : Digest := reset { s := List.replicate 8 0, x := zeros 64, nx := 0, len := 0 }

/-- sm3/digest.go:40-64 `Write` (the loop is `bufWrite`; `d.nx &= 0x3f` is `% 64`). -/
def write (d : Digest) (p : Bytes) : Digest :=
  let r := bufWrite 64 block d.s d.x (d.nx % 64) p
  { s := r.1, x := r.2.1, nx := r.2.2, len := d.len + BitVec.ofNat 64 p.length }

/-- sm3/digest.go:73-98 `checkSum` -/
def checkSum (d : Digest) : Bytes :=
  let nx := d.nx % 64
  let x := markBuf d.x nx 0x80#8 64
  let (s, x) := if 64 - nx < 9 then (block d.s x, goCopy x 0 (zeros 64)) else (d.s, x)
  let bcount := d.len / 64#64
  let x := goCopy x 56 (be32 ((bcount >>> 23).setWidth 32))
  let x := goCopy x 60 (be32 (((bcount <<< 9) + (BitVec.ofNat 64 nx <<< 3)).setWidth 32))
  ((block s x).map be32).flatten

/-- sm3/digest.go:66-71 `Sum` (works on a copy: `d` is unchanged). -/
def sum (d : Digest) (b : Bytes) : Bytes := b ++ checkSum d

/-- sm3.New as a `hash.Hash`; Size and BlockSize are sm3/digest.go:31-37. -/
def impl : HashImpl Digest where
  write d p := some (write d p, p.length)
  sum d b := some (d, sum d b)
  reset := reset
  size _ := 32
  blockSize _ := 64

/-- sm3/binary.go:10 `magic` -/
def magic : Bytes := [0x73#8, 0x6d#8, 0x33#8, 0x03#8]

/-- sm3/binary.go:14-33 `MarshalBinary`.  `b[:len(b)+64-nx]` exposes the zero bytes of the
freshly made backing array. -/
def marshal (d : Digest) : Bytes :=
  magic ++ (d.s.map be32).flatten ++ d.x.take d.nx ++ zeros (64 - d.nx) ++ be64 d.len

/-- sm3/binary.go:35-65 `UnmarshalBinary`: `none` is an error; on success the new digest.
`d` is the receiver before the call (it contributes nothing: all fields are overwritten). -/
def unmarshal (_d : Digest) (b : Bytes) : Option Digest :=
  if b.length < 4 ∨ b.take 4 ≠ magic then none
  else if b.length ≠ 108 then none
  else
    let b := b.drop 4
    let s := (List.range 8).map fun i => getBE32 b (4 * i)
    let b := b.drop 32
    let x := b.take 64
    let b := b.drop 64
    let length := getBE64 b
    some { s := s, x := x, nx := length.toNat % 64, len := length }

end Verif.SM3
