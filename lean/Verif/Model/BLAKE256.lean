import Verif.BufferX
/-
Model of package blake256: digest.go, utils.go, sbox.go, blake256.go, binary.go.
-/
namespace Verif.BLAKE256

/-- blake256/sbox.go:3-20 -/
def sigma : List (List Nat) :=
  [[0, 1, 2, 3, 4, 5, 6, 7, 8, 9, 10, 11, 12, 13, 14, 15],
   [14, 10, 4, 8, 9, 15, 13, 6, 1, 12, 0, 2, 11, 7, 5, 3],
   [11, 8, 12, 0, 5, 2, 15, 13, 10, 14, 3, 6, 7, 1, 9, 4],
   [7, 9, 3, 1, 13, 12, 11, 14, 2, 6, 5, 10, 4, 0, 15, 8],
   [9, 0, 5, 7, 2, 4, 10, 15, 14, 1, 11, 12, 6, 8, 3, 13],
   [2, 12, 6, 10, 0, 11, 8, 3, 4, 13, 7, 5, 15, 14, 1, 9],
   [12, 5, 1, 15, 14, 13, 4, 10, 0, 7, 6, 3, 9, 2, 8, 11],
   [13, 11, 7, 14, 12, 1, 3, 9, 5, 0, 15, 4, 8, 6, 2, 10],
   [6, 15, 14, 9, 11, 3, 0, 8, 12, 2, 13, 7, 1, 4, 10, 5],
   [10, 2, 8, 4, 7, 6, 1, 5, 15, 11, 9, 14, 3, 12, 13, 0],
   [0, 1, 2, 3, 4, 5, 6, 7, 8, 9, 10, 11, 12, 13, 14, 15],
   [14, 10, 4, 8, 9, 15, 13, 6, 1, 12, 0, 2, 11, 7, 5, 3],
   [11, 8, 12, 0, 5, 2, 15, 13, 10, 14, 3, 6, 7, 1, 9, 4],
   [7, 9, 3, 1, 13, 12, 11, 14, 2, 6, 5, 10, 4, 0, 15, 8],
   [9, 0, 5, 7, 2, 4, 10, 15, 14, 1, 11, 12, 6, 8, 3, 13],
   [2, 12, 6, 10, 0, 11, 8, 3, 4, 13, 7, 5, 15, 14, 1, 9]]

/-- blake256/sbox.go:22-27 -/
def u256 : List U32 :=
  [0x243f6a88#32, 0x85a308d3#32, 0x13198a2e#32, 0x03707344#32,
   0xa4093822#32, 0x299f31d0#32, 0x082efa98#32, 0xec4e6c89#32,
   0x452821e6#32, 0x38d01377#32, 0xbe5466cf#32, 0x34e90c6c#32,
   0xc0ac29b7#32, 0xc97c50dd#32, 0x3f84d5b5#32, 0xb5470917#32]

/-- blake256/sbox.go:41-44 -/
def iv256 : List U32 := [0x6A09E667#32, 0xBB67AE85#32, 0x3C6EF372#32, 0xA54FF53A#32,
  0x510E527F#32, 0x9B05688C#32, 0x1F83D9AB#32, 0x5BE0CD19#32]
/-- blake256/sbox.go:46-49 -/
def iv224 : List U32 := [0xC1059ED8#32, 0x367CD507#32, 0x3070DD17#32, 0xF70E5939#32,
  0xFFC00B31#32, 0x68581511#32, 0x64F98FA7#32, 0xBEFA4FA4#32]
/-- blake256/sbox.go:51 -/
def pad : Bytes := 0x80#8 :: zeros 63

/-- blake256/utils.go:12-23 `bytesToUint32s` -/
def bytesToUint32s (b : Bytes) : List U32 := (List.range (b.length / 4)).map fun i => getBE32 b (i * 4)

/-- blake256/utils.go:38-40 `rotr`: `bits.RotateLeft32(x, 32 - n)`, which for the distances used
is the right rotation by `n`. -/
def rotr (x : U32) (n : Nat) : U32 := x.rotateLeft (32 - n)

/-- blake256/utils.go:42-51 `G` -/
def G (m : List U32) (i : Nat) (v : List U32) (a b c d e : Nat) : List U32 :=
  let g (v : List U32) (i : Nat) := v.getD i 0
  let sg (k : Nat) := (sigma.getD i []).getD k 0
  let v := v.set a (g v a + ((m.getD (sg e) 0 ^^^ u256.getD (sg (e+1)) 0) + g v b))
  let v := v.set d (rotr (g v d ^^^ g v a) 16)
  let v := v.set c (g v c + g v d)
  let v := v.set b (rotr (g v b ^^^ g v c) 12)
  let v := v.set a (g v a + ((m.getD (sg (e+1)) 0 ^^^ u256.getD (sg e) 0) + g v b))
  let v := v.set d (rotr (g v d ^^^ g v a) 8)
  let v := v.set c (g v c + g v d)
  v.set b (rotr (g v b ^^^ g v c) 7)

/-- blake256/digest.go:167-179, one iteration. -/
def roundBody (m : List U32) (v : List U32) (i : Nat) : List U32 :=
  let v := G m i v 0 4 8 12 0
  let v := G m i v 1 5 9 13 2
  let v := G m i v 2 6 10 14 4
  let v := G m i v 3 7 11 15 6
  let v := G m i v 0 5 10 15 8
  let v := G m i v 1 6 11 12 10
  let v := G m i v 2 7 8 13 12
  G m i v 3 4 9 14 14

/-- The fields `s`, `h`, `t`, `nullt`, blake256/digest.go:14-28 (`x`, `nx`, `len` are those of
`BufDigest`; `hs` and `initVal` are parameters of `impl`, no method changes them). -/
structure State where
  s : List U32
  h : List U32
  t : U64
  nullt : Bool

/-- blake256/digest.go:139-188 `compress` -/
def compress (d : State) (p : Bytes) : State :=
  let m := bytesToUint32s p
  let t := d.t + 512#64
  let c i := u256.getD i 0
  let tl : U32 := if !d.nullt then t.setWidth 32 else 0
  let th : U32 := if !d.nullt then (t >>> 32).setWidth 32 else 0
  let v := d.h.take 8 ++ [d.s.getD 0 0 ^^^ c 0, d.s.getD 1 0 ^^^ c 1, d.s.getD 2 0 ^^^ c 2,
    d.s.getD 3 0 ^^^ c 3, c 4 ^^^ tl, c 5 ^^^ tl, c 6 ^^^ th, c 7 ^^^ th]
  let v := forLoop 0 14 (roundBody m) v
  let h := forLoop 0 16 (fun (h : List U32) i => h.set (i % 8) (h.getD (i % 8) 0 ^^^ v.getD i 0)) d.h
  let h := forLoop 0 8 (fun (h : List U32) i => h.set i (h.getD i 0 ^^^ d.s.getD (i % 4) 0)) h
  { d with h := h, t := t }

/-- blake256/digest.go:14-28 -/
abbrev Digest := BufDigest State

/-- blake256/digest.go:40-49 `Reset`: the salt is zeroed (although the comment says it stays). -/
def reset (iv : List U32) (_ : Digest) : Digest :=
  { s := { s := [0, 0, 0, 0], h := iv, t := 0, nullt := false }, x := zeros 64, nx := 0, len := 0 }
/-- blake256/digest.go:30-37 `newDigest` -/
def new (iv : List U32) : Digest := reset iv
  { s := { s := [0, 0, 0, 0], h := [], t := 0, nullt := false }, x := zeros 64, nx := 0, len := 0 }
/-- blake256/digest.go:190-197 `setSalt`, blake256/blake256.go:11-15, 35-39: `NewWithSalt`;
`none` is the panic on a salt that is not 16 bytes long. -/
def newWithSalt (iv : List U32) (salt : Bytes) : Option Digest :=
  if salt.length ≠ 16 then none
  else
    let d := new iv
    some { d with s := { d.s with s := goCopy d.s.s 0 (bytesToUint32s salt) } }

/-- blake256/digest.go:59-82 `Write` -/
def write (d : Digest) (p : Bytes) : Digest := d.absorb 64 compress p

/-- `d.t -= k` -/
def subT (d : Digest) (k : U64) : Digest := { d with s := { d.s with t := d.s.t - k } }
/-- `d.nullt = true` -/
def setNull (d : Digest) : Digest := { d with s := { d.s with nullt := true } }

/-- blake256/digest.go:93-137 `checkSum` -/
def checkSum (hs : Nat) (d : Digest) : Bytes :=
  let nx := d.nx
  let l := d.s.t + BitVec.ofNat 64 nx <<< 3
  let msglen := be64 l
  let d :=
    if nx = 55 then
      let d := subT d 8
      if hs = 224 then write d [0x80#8] else write d [0x81#8]
    else
      let d :=
        if nx < 55 then
          let d := if nx = 0 then setNull d else d
          let d := subT d (440 - BitVec.ofNat 64 nx <<< 3)
          write d (pad.take (55 - nx))
        else
          let d := subT d (512 - BitVec.ofNat 64 nx <<< 3)
          let d := write d (pad.take (64 - nx))
          let d := subT d 440
          let d := write d ((pad.take 56).drop 1)
          setNull d
      let d := if hs = 224 then write d [0x00#8] else write d [0x01#8]
      subT d 8
  let d := subT d 64
  let d := write d msglen
  (((d.s.h.take (hs / 32)).map be32).flatten).take (hs / 8)

/-- The methods of `newDigest(hs, iv)`; `Sum` works on a copy. -/
def impl (hs : Nat) (iv : List U32) : HashImpl Digest where
  write d p := some (write d p, p.length)
  sum d b := some (d, b ++ checkSum hs d)
  reset := reset iv
  size _ := hs / 8
  blockSize _ := 64

end Verif.BLAKE256
