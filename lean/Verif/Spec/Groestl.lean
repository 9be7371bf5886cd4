import Verif.Padding
/-
Grøstl (Gauravaram et al., SHA-3 finalist version, 2011), written from the specification: the state is a byte array, byte `8*j + i` is row i of
column j.
-/
namespace Verif.Spec.Groestl

/-- The AES S-box (FIPS 197). -/
def sbox : Bytes := [0x63#8, 0x7c#8, 0x77#8, 0x7b#8, 0xf2#8, 0x6b#8, 0x6f#8, 0xc5#8, 0x30#8, 0x01#8, 0x67#8, 0x2b#8, 0xfe#8, 0xd7#8, 0xab#8, 0x76#8,
  0xca#8, 0x82#8, 0xc9#8, 0x7d#8, 0xfa#8, 0x59#8, 0x47#8, 0xf0#8, 0xad#8, 0xd4#8, 0xa2#8, 0xaf#8, 0x9c#8, 0xa4#8, 0x72#8, 0xc0#8,
  0xb7#8, 0xfd#8, 0x93#8, 0x26#8, 0x36#8, 0x3f#8, 0xf7#8, 0xcc#8, 0x34#8, 0xa5#8, 0xe5#8, 0xf1#8, 0x71#8, 0xd8#8, 0x31#8, 0x15#8,
  0x04#8, 0xc7#8, 0x23#8, 0xc3#8, 0x18#8, 0x96#8, 0x05#8, 0x9a#8, 0x07#8, 0x12#8, 0x80#8, 0xe2#8, 0xeb#8, 0x27#8, 0xb2#8, 0x75#8,
  0x09#8, 0x83#8, 0x2c#8, 0x1a#8, 0x1b#8, 0x6e#8, 0x5a#8, 0xa0#8, 0x52#8, 0x3b#8, 0xd6#8, 0xb3#8, 0x29#8, 0xe3#8, 0x2f#8, 0x84#8,
  0x53#8, 0xd1#8, 0x00#8, 0xed#8, 0x20#8, 0xfc#8, 0xb1#8, 0x5b#8, 0x6a#8, 0xcb#8, 0xbe#8, 0x39#8, 0x4a#8, 0x4c#8, 0x58#8, 0xcf#8,
  0xd0#8, 0xef#8, 0xaa#8, 0xfb#8, 0x43#8, 0x4d#8, 0x33#8, 0x85#8, 0x45#8, 0xf9#8, 0x02#8, 0x7f#8, 0x50#8, 0x3c#8, 0x9f#8, 0xa8#8,
  0x51#8, 0xa3#8, 0x40#8, 0x8f#8, 0x92#8, 0x9d#8, 0x38#8, 0xf5#8, 0xbc#8, 0xb6#8, 0xda#8, 0x21#8, 0x10#8, 0xff#8, 0xf3#8, 0xd2#8,
  0xcd#8, 0x0c#8, 0x13#8, 0xec#8, 0x5f#8, 0x97#8, 0x44#8, 0x17#8, 0xc4#8, 0xa7#8, 0x7e#8, 0x3d#8, 0x64#8, 0x5d#8, 0x19#8, 0x73#8,
  0x60#8, 0x81#8, 0x4f#8, 0xdc#8, 0x22#8, 0x2a#8, 0x90#8, 0x88#8, 0x46#8, 0xee#8, 0xb8#8, 0x14#8, 0xde#8, 0x5e#8, 0x0b#8, 0xdb#8,
  0xe0#8, 0x32#8, 0x3a#8, 0x0a#8, 0x49#8, 0x06#8, 0x24#8, 0x5c#8, 0xc2#8, 0xd3#8, 0xac#8, 0x62#8, 0x91#8, 0x95#8, 0xe4#8, 0x79#8,
  0xe7#8, 0xc8#8, 0x37#8, 0x6d#8, 0x8d#8, 0xd5#8, 0x4e#8, 0xa9#8, 0x6c#8, 0x56#8, 0xf4#8, 0xea#8, 0x65#8, 0x7a#8, 0xae#8, 0x08#8,
  0xba#8, 0x78#8, 0x25#8, 0x2e#8, 0x1c#8, 0xa6#8, 0xb4#8, 0xc6#8, 0xe8#8, 0xdd#8, 0x74#8, 0x1f#8, 0x4b#8, 0xbd#8, 0x8b#8, 0x8a#8,
  0x70#8, 0x3e#8, 0xb5#8, 0x66#8, 0x48#8, 0x03#8, 0xf6#8, 0x0e#8, 0x61#8, 0x35#8, 0x57#8, 0xb9#8, 0x86#8, 0xc1#8, 0x1d#8, 0x9e#8,
  0xe1#8, 0xf8#8, 0x98#8, 0x11#8, 0x69#8, 0xd9#8, 0x8e#8, 0x94#8, 0x9b#8, 0x1e#8, 0x87#8, 0xe9#8, 0xce#8, 0x55#8, 0x28#8, 0xdf#8,
  0x8c#8, 0xa1#8, 0x89#8, 0x0d#8, 0xbf#8, 0xe6#8, 0x42#8, 0x68#8, 0x41#8, 0x99#8, 0x2d#8, 0x0f#8, 0xb0#8, 0x54#8, 0xbb#8, 0x16#8]

/-- Multiplication by x in GF(2^8) modulo x^8+x^4+x^3+x+1. -/
def xtime (b : Byte) : Byte := (b <<< 1) ^^^ (if b.msb then 0x1b else 0)

/-- Multiplication by a constant below 8. -/
def mul (c : Nat) (b : Byte) : Byte :=
  (if c.testBit 0 then b else 0) ^^^ (if c.testBit 1 then xtime b else 0) ^^^ (if c.testBit 2 then xtime (xtime b) else 0)

/-- First row of the circulant matrix B of MixBytes. -/
def circ : List Nat := [2, 2, 3, 4, 5, 3, 5, 7]

/-- Entry (i,k) of B. -/
def B (i k : Nat) : Nat := circ.getD ((k + 8 - i) % 8) 0

def addConst (n : Nat) (rc : Nat → Nat → Byte) (st : Bytes) : Bytes := (List.range (8 * n)).map fun p => at8 st p ^^^ rc (p / 8) (p % 8)
def subBytes (st : Bytes) : Bytes := st.map fun b => at8 sbox b.toNat
/-- Row i moves left by `sh i` columns. -/
def shiftBytes (n : Nat) (sh : List Nat) (st : Bytes) : Bytes :=
  (List.range (8 * n)).map fun p => at8 st (8 * ((p / 8 + sh.getD (p % 8) 0) % n) + p % 8)
def mixBytes (n : Nat) (st : Bytes) : Bytes :=
  (List.range (8 * n)).map fun p => (List.range 8).foldl (fun a k => a ^^^ mul (B (p % 8) k) (at8 st (8 * (p / 8) + k))) 0

def round (n : Nat) (rc : Nat → Nat → Byte) (sh : List Nat) (st : Bytes) : Bytes :=
  mixBytes n (shiftBytes n sh (subBytes (addConst n rc st)))

/-- Round constant of P: row 0 gets (column·16) xor r. -/
def rcP (r j i : Nat) : Byte := if i = 0 then BitVec.ofNat 8 (16 * j) ^^^ BitVec.ofNat 8 r else 0
/-- Round constant of Q: all ones, and row 7 additionally gets (column·16) xor r. -/
def rcQ (r j i : Nat) : Byte := if i = 7 then 0xff ^^^ (BitVec.ofNat 8 (16 * j) ^^^ BitVec.ofNat 8 r) else 0xff

/-- The ShiftBytes vectors. -/
def shP (n : Nat) : List Nat := if n = 8 then [0, 1, 2, 3, 4, 5, 6, 7] else [0, 1, 2, 3, 4, 5, 6, 11]
def shQ (n : Nat) : List Nat := if n = 8 then [1, 3, 5, 7, 0, 2, 4, 6] else [1, 3, 5, 11, 0, 2, 4, 6]
def rounds (n : Nat) : Nat := if n = 8 then 10 else 14

def P (n : Nat) (st : Bytes) : Bytes := (List.range (rounds n)).foldl (fun st r => round n (rcP r) (shP n) st) st
def Q (n : Nat) (st : Bytes) : Bytes := (List.range (rounds n)).foldl (fun st r => round n (rcQ r) (shQ n) st) st

def xor (a b : Bytes) : Bytes := List.zipWith (· ^^^ ·) a b

/-- The compression function f(h,m) = P(h xor m) xor Q(m) xor h. -/
def f (n : Nat) (h m : Bytes) : Bytes := xor (xor (P n (xor h m)) (Q n m)) h

/-- Columns of the state for a digest of `hs` bits. -/
def cols (hs : Nat) : Nat := if hs ≤ 256 then 8 else 16

/-- Number of blocks of the padded message: the last block ends with it. -/
def nblocks (bl : Nat) (m : Bytes) : Nat := (m.length + 9 + (bl - 1)) / bl

def pad (bl : Nat) (m : Bytes) : Bytes := mdPad bl 0x80 (be64 (BitVec.ofNat 64 (nblocks bl m))) m

/-- The initial value: the digest length in bits. -/
def iv (hs : Nat) : Bytes := zeros (8 * cols hs - 8) ++ be64 (BitVec.ofNat 64 hs)

/-- Grøstl with a digest of `hs` bits. -/
def hash (hs : Nat) (m : Bytes) : Bytes :=
  let n := cols hs
  let h := (fullBlocks (8 * n) (pad (8 * n) m)).foldl (f n) (iv hs)
  (xor (P n h) h).drop (8 * n - hs / 8)

end Verif.Spec.Groestl
