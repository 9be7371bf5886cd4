import Verif.Basic
/-
The belt block cipher and belt-hash (STB 34.101.31-2011, 6.1 and 6.9).  Octet strings; words are little-endian.
-/
namespace Verif.Spec.Belt

/-- The substitution H of the standard (table 1). -/
def H : List Byte :=
  [0xb1#8, 0x94#8, 0xba#8, 0xc8#8, 0x0a#8, 0x08#8, 0xf5#8, 0x3b#8, 0x36#8, 0x6d#8, 0x00#8, 0x8e#8, 0x58#8, 0x4a#8, 0x5d#8, 0xe4#8,
  0x85#8, 0x04#8, 0xfa#8, 0x9d#8, 0x1b#8, 0xb6#8, 0xc7#8, 0xac#8, 0x25#8, 0x2e#8, 0x72#8, 0xc2#8, 0x02#8, 0xfd#8, 0xce#8, 0x0d#8,
  0x5b#8, 0xe3#8, 0xd6#8, 0x12#8, 0x17#8, 0xb9#8, 0x61#8, 0x81#8, 0xfe#8, 0x67#8, 0x86#8, 0xad#8, 0x71#8, 0x6b#8, 0x89#8, 0x0b#8,
  0x5c#8, 0xb0#8, 0xc0#8, 0xff#8, 0x33#8, 0xc3#8, 0x56#8, 0xb8#8, 0x35#8, 0xc4#8, 0x05#8, 0xae#8, 0xd8#8, 0xe0#8, 0x7f#8, 0x99#8,
  0xe1#8, 0x2b#8, 0xdc#8, 0x1a#8, 0xe2#8, 0x82#8, 0x57#8, 0xec#8, 0x70#8, 0x3f#8, 0xcc#8, 0xf0#8, 0x95#8, 0xee#8, 0x8d#8, 0xf1#8,
  0xc1#8, 0xab#8, 0x76#8, 0x38#8, 0x9f#8, 0xe6#8, 0x78#8, 0xca#8, 0xf7#8, 0xc6#8, 0xf8#8, 0x60#8, 0xd5#8, 0xbb#8, 0x9c#8, 0x4f#8,
  0xf3#8, 0x3c#8, 0x65#8, 0x7b#8, 0x63#8, 0x7c#8, 0x30#8, 0x6a#8, 0xdd#8, 0x4e#8, 0xa7#8, 0x79#8, 0x9e#8, 0xb2#8, 0x3d#8, 0x31#8,
  0x3e#8, 0x98#8, 0xb5#8, 0x6e#8, 0x27#8, 0xd3#8, 0xbc#8, 0xcf#8, 0x59#8, 0x1e#8, 0x18#8, 0x1f#8, 0x4c#8, 0x5a#8, 0xb7#8, 0x93#8,
  0xe9#8, 0xde#8, 0xe7#8, 0x2c#8, 0x8f#8, 0x0c#8, 0x0f#8, 0xa6#8, 0x2d#8, 0xdb#8, 0x49#8, 0xf4#8, 0x6f#8, 0x73#8, 0x96#8, 0x47#8,
  0x06#8, 0x07#8, 0x53#8, 0x16#8, 0xed#8, 0x24#8, 0x7a#8, 0x37#8, 0x39#8, 0xcb#8, 0xa3#8, 0x83#8, 0x03#8, 0xa9#8, 0x8b#8, 0xf6#8,
  0x92#8, 0xbd#8, 0x9b#8, 0x1c#8, 0xe5#8, 0xd1#8, 0x41#8, 0x01#8, 0x54#8, 0x45#8, 0xfb#8, 0xc9#8, 0x5e#8, 0x4d#8, 0x0e#8, 0xf2#8,
  0x68#8, 0x20#8, 0x80#8, 0xaa#8, 0x22#8, 0x7d#8, 0x64#8, 0x2f#8, 0x26#8, 0x87#8, 0xf9#8, 0x34#8, 0x90#8, 0x40#8, 0x55#8, 0x11#8,
  0xbe#8, 0x32#8, 0x97#8, 0x13#8, 0x43#8, 0xfc#8, 0x9a#8, 0x48#8, 0xa0#8, 0x2a#8, 0x88#8, 0x5f#8, 0x19#8, 0x4b#8, 0x09#8, 0xa1#8,
  0x7e#8, 0xcd#8, 0xa4#8, 0xd0#8, 0x15#8, 0x44#8, 0xaf#8, 0x8c#8, 0xa5#8, 0x84#8, 0x50#8, 0xbf#8, 0x66#8, 0xd2#8, 0xe8#8, 0x8a#8,
  0xa2#8, 0xd7#8, 0x46#8, 0x52#8, 0x42#8, 0xa8#8, 0xdf#8, 0xb3#8, 0x69#8, 0x74#8, 0xc5#8, 0x51#8, 0xeb#8, 0x23#8, 0x29#8, 0x21#8,
  0xd4#8, 0xef#8, 0xd9#8, 0xb4#8, 0x3a#8, 0x62#8, 0x28#8, 0x75#8, 0x91#8, 0x14#8, 0x10#8, 0xea#8, 0x77#8, 0x6c#8, 0xda#8, 0x1d#8]

def xor (a b : Bytes) : Bytes := List.zipWith (· ^^^ ·) a b

/-- G_r: H on each octet, then a cyclic shift towards the high bits by r. -/
def G (r : Nat) (u : U32) : U32 :=
  let h (i : Nat) : Byte := H.getD (u.extractLsb' (8 * i) 8).toNat 0
  (h 3 ++ h 2 ++ h 1 ++ h 0 : BitVec 32).rotateLeft r

/-- Round i = 1, …, 8; the key words θ_1 … θ_8 are used cyclically (k_1 … k_56). -/
def round (θ : Bytes) (i : Nat) (x : U32 × U32 × U32 × U32) : U32 × U32 × U32 × U32 :=
  let k (n : Nat) : U32 := getLE32 θ (4 * ((n - 1) % 8))
  let (a, b, c, d) := x
  let b := b ^^^ G 5 (a + k (7 * i - 6))
  let c := c ^^^ G 21 (d + k (7 * i - 5))
  let a := a - G 13 (b + k (7 * i - 4))
  let e := G 21 (b + c + k (7 * i - 3)) ^^^ BitVec.ofNat 32 i
  let b := b + e
  let c := c - e
  let d := d + G 13 (c + k (7 * i - 2))
  let b := b ^^^ G 21 (a + k (7 * i - 1))
  let c := c ^^^ G 5 (d + k (7 * i))
  -- a ↔ b, c ↔ d, b ↔ c
  (b, d, a, c)

/-- F_θ on 128 bits. -/
def F (θ X : Bytes) : Bytes :=
  let (a, b, c, d) := [1, 2, 3, 4, 5, 6, 7, 8].foldl (fun x i => round θ i x) (getLE32 X 0, getLE32 X 4, getLE32 X 8, getLE32 X 12)
  le32 b ++ le32 d ++ le32 a ++ le32 c

/-- σ1(u1 ∥ u2 ∥ u3 ∥ u4), given as X = u1 ∥ u2 and h = u3 ∥ u4. -/
def sigma1 (X h : Bytes) : Bytes :=
  let w := xor (h.take 16) (h.drop 16)
  xor (F X w) w

def sigma2 (X h : Bytes) : Bytes :=
  let t := sigma1 X h
  let θ1 := t ++ h.drop 16
  let θ2 := xor t (List.replicate 16 0xff) ++ h.take 16
  xor (F θ1 (X.take 16)) (X.take 16) ++ xor (F θ2 (X.drop 16)) (X.drop 16)

/-- The length in bits as 128 bits, little-endian. -/
def len128 (n : Nat) : Bytes := le64 (BitVec.ofNat 64 n) ++ le64 (BitVec.ofNat 64 (n / 2 ^ 64))

/-- The message completed with zero octets to a multiple of 32. -/
def pad (m : Bytes) : Bytes := m ++ zeros ((32 - m.length % 32) % 32)

/-- One block: s ← s ⊕ σ1(X ∥ h), h ← σ2(X ∥ h). -/
def step (sh : Bytes × Bytes) (X : Bytes) : Bytes × Bytes := (xor sh.1 (sigma1 X sh.2), sigma2 X sh.2)

def hash (m : Bytes) : Bytes :=
  let (s, h) := (fullBlocks 32 (pad m)).foldl step (zeros 16, H.take 32)
  sigma2 (len128 (8 * m.length) ++ s) h

end Verif.Spec.Belt
