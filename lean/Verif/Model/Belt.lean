import Verif.HashAPI
import Verif.LoopBuf
/-
Package belt (belt/digest.go, utils.go, sbox.go).  Fixed-size arrays are lists; loops that XOR two arrays element by element are written with zipWith.
-/
namespace Verif.Belt

/-- sbox.go:3-20 -/
def S : List Byte :=
  [0xb1#8, 0x94#8, 0xba#8, 0xc8#8, 0x0a#8, 0x08#8, 0xf5#8, 0x3b#8, 0x36#8, 0x6d#8, 0x00#8, 0x8e#8, 0x58#8, 0x4a#8, 0x5d#8, 0xe4#8,
  0x85#8, 0x04#8, 0xfa#8, 0x9d#8, 0x1b#8, 0xb6#8, 0xc7#8, 0xac#8, 0x25#8, 0x2e#8, 0x72#8, 0xc2#8, 0x02#8, 0xfd#8, 0xce#8, 0x0d#8,
  0x5b#8, 0xe3#8, 0xd6#8, 0x12#8, 0x17#8, 0xb9#8, 0x61#8, 0x81#8, 0xfe#8, 0x67#8, 0x86#8, 0xad#8, 0x71#8, 0x6b#8, 0x89#8, 0x0b#8,
  0x5c#8, 0xb0#8, 0xc0#8, 0xff#8, 0x33#8, 0xc3#8, 0x56#8, 0xb8#8, 0x35#8, 0xc4#8, 0x05#8, 0xae#8, 0xd8#8, 0xe0#8, 0x7f#8, 0x99#8,
  0xe1#8, 0x2b#8, 0xdc#8, 0x1a#8, 0xe2#8, 0x82#8, 0x57#8, 0xec#8, 0x70#8, 0x3f#8, 0xcc#8, 0xf0#8, 0x95#8, 0xee#8, 0x8d#8, 0xf1#8,
  0xc1#8, 0xab#8, 0x76#8, 0x38#8, 0x9f#8, 0xe6#8, 0x78#8, 0xca#8, 0xf7#8, 0xc6#8, 0xf8#8, 0x60#8, 0xd5#8, 0xbb#8, 0x9c#8, 0x4f#8,
  0xf3#8, 0x3c#8, 0x65#8, 0x7b#8, 0x63#8, 0x7c#8, 0x30#8, 0x6a#8, 0xdd#8, 0x4e#8, 0xa7#8, 0x79#8, 0x9e#8, 0xb2#8, 0x3d#8, 0x31#8,
  0x3e#8, 0x98#8, 0xb5#8, 0x6e#8, 0x27#8, 0xd3#8, 0xbc#8, 0xcf#8, 0x59#8, 0x1e#8, 0x18#8, 0x1f#8, 0x4c#8, 0x5a#8, 0xb7#8, 0x93#8,
  0xe9#8, 0xde#8, 0xe7#8, 0x2c#8, 0x8f#8, 0x0c#8, 0x0f#8, 0xa6#8, 0x2d#8, 0xdb#8, 0x49#8, 0xf4#8, 0x6f#8, 0x73#8, 0x96#8, 0x47#8,
  0x06#8, 0x07#8, 0x53#8, 0x16#8, 0xed#8, 0x24#8, 0x7a#8, 0x37#8, 0x39#8, 0xcb#8, 0xa3#8, 0x83#8, 0x03#8, 0xa9#8, 0x8b#8, 0xf6#8,
  0x92#8, 0xbd#8, 0x9b#8, 0x1c#8, 0xe5#8, 0xd1#8, 0x41#8, 0x01#8, 0x54#8, 0x45#8, 0xfb#8, 0xc9#8, 0x5e#8, 0x4d#8, 0x0e#8, 0xf2#8,
  0x68#8, 0x20#8, 0x80#8, 0xaa#8, 0x22#8, 0x7d#8, 0x64#8, 0x2f#8, 0x26#8, 0x87#8, 0xf9#8, 0x34#8, 0x90#8, 0x40#8, 0x55#8, 0x11#8,
  0xbe#8, 0x32#8, 0x97#8, 0x13#8, 0x43#8, 0xfc#8, 0x9a#8, 0x48#8, 0xa0#8, 0x2a#8, 0x88#8, 0x5f#8, 0x19#8, 0x4b#8, 0x09#8, 0xa1#8,
  0x7e#8, 0xcd#8, 0xa4#8, 0xd0#8, 0x15#8, 0x44#8, 0xaf#8, 0x8c#8, 0xa5#8, 0x84#8, 0x50#8, 0xbf#8, 0x66#8, 0xd2#8, 0xe8#8, 0x8a#8,
  0xa2#8, 0xd7#8, 0x46#8, 0x52#8, 0x42#8, 0xa8#8, 0xdf#8, 0xb3#8, 0x69#8, 0x74#8, 0xc5#8, 0x51#8, 0xeb#8, 0x23#8, 0x29#8, 0x21#8,
  0xd4#8, 0xef#8, 0xd9#8, 0xb4#8, 0x3a#8, 0x62#8, 0x28#8, 0x75#8, 0x91#8, 0x14#8, 0x10#8, 0xea#8, 0x77#8, 0x6c#8, 0xda#8, 0x1d#8]

/-- sbox.go:22-31 -/
def KIdx : List (List Nat) := [
  [0, 1, 2, 3, 4, 5, 6],
  [7, 0, 1, 2, 3, 4, 5],
  [6, 7, 0, 1, 2, 3, 4],
  [5, 6, 7, 0, 1, 2, 3],
  [4, 5, 6, 7, 0, 1, 2],
  [3, 4, 5, 6, 7, 0, 1],
  [2, 3, 4, 5, 6, 7, 0],
  [1, 2, 3, 4, 5, 6, 7]]

/-- sbox.go:33-38 -/
def iv : List U64 := [0x3bf5080ac8ba94b1, 0xe45d4a588e006d36, 0xacc7b61b9dfa0485, 0x0dcefd02c2722e25]

/-- The loops `for i { r[i] = a[i] ^ b[i] }`. -/
def xorB (a b : Bytes) : Bytes := List.zipWith (· ^^^ ·) a b

/-- utils.go:52-54 -/
def GET_BYTE (x : U32) (a : Nat) : Byte := (x >>> a).setWidth 8 &&& 0xff
/-- utils.go:56-58 -/
def PUT_BYTE (x : Byte) (a : Nat) : U32 := x.setWidth 32 <<< a
/-- utils.go:60-62 -/
def SB (x : U32) (a : Nat) : U32 := PUT_BYTE (S.getD (GET_BYTE x a).toNat 0) a
/-- utils.go:64-66 -/
def G (x : U32) (r : Nat) : U32 := (SB x 24 ||| SB x 16 ||| SB x 8 ||| SB x 0).rotateLeft r

/-- utils.go:106-135: one turn of the loop of belt_encrypt; the key words are read from ks as the code does. -/
def encRound (ks : Bytes) (st : U32 × U32 × U32 × U32) (i : Nat) : U32 × U32 × U32 × U32 :=
  let key (j : Nat) : U32 := getLE32 ks (4 * (KIdx.getD i []).getD j 0)
  let (a, b, c, d) := st
  let b := b ^^^ G (a + key 0) 5
  let c := c ^^^ G (d + key 1) 21
  let a := a - G (b + key 2) 13
  let e := G (b + c + key 3) 21 ^^^ (BitVec.ofNat 32 i + 1)
  let b := b + e
  let c := c - e
  let d := d + G (c + key 4) 13
  let b := b ^^^ G (a + key 5) 21
  let c := c ^^^ G (d + key 6) 5
  let (a, b) := (b, a)
  let (c, d) := (d, c)
  let (b, c) := (c, b)
  (a, b, c, d)

/-- utils.go:96-141 -/
def belt_encrypt (inp ks : Bytes) : Bytes :=
  let (a, b, c, d) := forLoop 0 8 (encRound ks) (getLE32 inp 0, getLE32 inp 4, getLE32 inp 8, getLE32 inp 12)
  le32 b ++ le32 d ++ le32 a ++ le32 c

/-- utils.go:153-182: one turn of the loop of belt_decrypt. -/
def decRound (ks : Bytes) (st : U32 × U32 × U32 × U32) (i : Nat) : U32 × U32 × U32 × U32 :=
  let j := 7 - i
  let key (n : Nat) : U32 := getLE32 ks (4 * (KIdx.getD j []).getD n 0)
  let (a, b, c, d) := st
  let b := b ^^^ G (a + key 6) 5
  let c := c ^^^ G (d + key 5) 21
  let a := a - G (b + key 4) 13
  let e := G (b + c + key 3) 21 ^^^ (BitVec.ofNat 32 j + 1)
  let b := b + e
  let c := c - e
  let d := d + G (c + key 2) 13
  let b := b ^^^ G (a + key 1) 21
  let c := c ^^^ G (d + key 0) 5
  let (a, b) := (b, a)
  let (c, d) := (d, c)
  let (a, d) := (d, a)
  (a, b, c, d)

/-- utils.go:143-189 -/
def belt_decrypt (inp ks : Bytes) : Bytes :=
  let (a, b, c, d) := forLoop 0 8 (decRound ks) (getLE32 inp 0, getLE32 inp 4, getLE32 inp 8, getLE32 inp 12)
  le32 c ++ le32 a ++ le32 d ++ le32 b

/-- utils.go:196-222 -/
def sigma1Xor (x h s : Bytes) (useXor : Bool) : Bytes :=
  let tmp1 := xorB (h.take 16) (h.drop 16)
  if useXor then
    let tmp2 := belt_encrypt tmp1 x
    xorB s (xorB tmp1 tmp2)
  else
    let s := belt_encrypt tmp1 x
    xorB s tmp1

/-- utils.go:224-265 -/
def sigma2 (x h : Bytes) : Bytes :=
  let tmp := h.take 16
  let tmpTeta := sigma1Xor x h (zeros 16) false
  let teta := goCopy (zeros 32) 0 tmpTeta
  let teta := goCopy teta 16 (h.drop 16)
  let tmpX := x.take 16
  let tmpResult := belt_encrypt tmpX teta
  let r1 := xorB tmpResult (x.take 16)
  -- teta[i] ^= 0xff; teta[i + 16] = tmp[i]
  let teta := (teta.take 16).map (· ^^^ 0xff) ++ tmp
  let tmpX := x.drop 16
  let tmpResult := belt_encrypt tmpX teta
  r1 ++ xorB tmpResult (x.drop 16)

/-- utils.go:267-271: new h and s. -/
def hashProcess (x h s : Bytes) : Bytes × Bytes :=
  let s := sigma1Xor x h s true
  let h := sigma2 x h
  (h, s)

/-- utils.go:31-42 -/
def uint64sToBytes (w : List U64) : Bytes := forLoop 0 w.length (fun dst i => goCopy dst (i * 8) (le64 (w.getD i 0))) (zeros (w.length * 8))

/-- digest.go:12-19.  The field len is written but never read; it is left out. -/
structure Digest where
  s : Bytes
  x : Bytes
  nx : Nat
  h : Bytes

/-- digest.go:115-135: the first 16 bytes of s are a 128-bit counter. -/
def updateCtr (s : Bytes) (lenBytes : Nat) : Bytes :=
  let a0 := getLE64 s 0
  let a1 := getLE64 s 8
  let b : U64 := BitVec.ofNat 64 lenBytes <<< 3
  let c := a0 + b
  let a1 := if c < b then a1 + 1 else a1
  goCopy (goCopy s 0 (le64 c)) 8 (le64 a1)

/-- digest.go:106-113 on the pair (s, h) -/
def process (sh : Bytes × Bytes) (data : Bytes) : Bytes × Bytes :=
  let s := sh.1.drop 16
  let r := hashProcess data sh.2 s
  (goCopy sh.1 16 r.2, r.1)

/-- digest.go:98-104 -/
def processBlock (sh : Bytes × Bytes) (data : Bytes) : Bytes × Bytes := process (updateCtr sh.1 32, sh.2) data

/-- digest.go:29-36; the array h is overwritten in full. -/
def Digest.reset (_d : Digest) : Digest := { s := zeros 32, x := zeros 32, nx := 0, h := uint64sToBytes iv }
/-- digest.go:22-27 -/
def new : Digest := Digest.reset { s := zeros 32, x := zeros 32, nx := 0, h := zeros 32 }

/-- digest.go:46-69 -/
def Digest.write (d : Digest) (p : Bytes) : Digest × Nat :=
  let w := loopWrite 32 (fun sh x _ => processBlock sh x) (fun sh _ => sh) (p.length + 1) (d.s, d.h) d.x d.nx p
  ({ s := w.1.1, h := w.1.2, x := w.2.1, nx := w.2.2 }, p.length)

/-- digest.go:78-96 -/
def Digest.checkSum (d : Digest) : Bytes :=
  let sh := if d.nx ≠ 0 then
      let x := goCopy d.x d.nx (zeros 32)
      process (updateCtr d.s d.nx, d.h) x
    else (d.s, d.h)
  sigma2 sh.1 sh.2

/-- digest.go:38-44, 71-76 -/
def impl : HashImpl Digest where
  write d p := some (d.write p)
  sum d b := some (d, b ++ d.checkSum)
  reset := Digest.reset
  size _ := 32
  blockSize _ := 32

end Verif.Belt
