import Verif.Padding
import Verif.Spec.GFBlock
/-
Whirlpool (ISO/IEC 10118-3 dedicated hash function 7) and its two earlier versions: an 8×8 matrix of bytes, written row after row; arithmetic in GF(2^8) modulo
x^8+x^4+x^3+x^2+1.
-/
namespace Verif.Spec.Whirlpool

/-- The mini-boxes E and R of the S-box. -/
def E : List Nat := [0x1, 0xB, 0x9, 0xC, 0xD, 0x6, 0xF, 0x3, 0xE, 0x8, 0x7, 0x4, 0xA, 0x2, 0x5, 0x0]
def R : List Nat := [0x7, 0xC, 0xB, 0xD, 0xE, 0x4, 0x9, 0xF, 0x6, 0x3, 0x8, 0xA, 0x2, 0x5, 0x1, 0x0]
def eBox (x : Nat) : Nat := E.getD x 0
def eInv (x : Nat) : Nat := E.idxOf x
def rBox (x : Nat) : Nat := R.getD x 0
/-- The S-box of the final version, from its mini-boxes. -/
def sboxFinal : Bytes := (List.range 256).map fun x =>
  let a := eBox (x / 16)
  let b := eInv (x % 16)
  let t := rBox (a ^^^ b)
  BitVec.ofNat 8 (16 * eBox (a ^^^ t) + eInv (b ^^^ t))
/-- The pseudo-random S-box of the first version (Whirlpool-0). -/
def sboxOld : Bytes := [
  0x68, 0xd0, 0xeb, 0x2b, 0x48, 0x9d, 0x6a, 0xe4, 0xe3, 0xa3, 0x56, 0x81, 0x7d, 0xf1, 0x85, 0x9e,
  0x2c, 0x8e, 0x78, 0xca, 0x17, 0xa9, 0x61, 0xd5, 0x5d, 0x0b, 0x8c, 0x3c, 0x77, 0x51, 0x22, 0x42,
  0x3f, 0x54, 0x41, 0x80, 0xcc, 0x86, 0xb3, 0x18, 0x2e, 0x57, 0x06, 0x62, 0xf4, 0x36, 0xd1, 0x6b,
  0x1b, 0x65, 0x75, 0x10, 0xda, 0x49, 0x26, 0xf9, 0xcb, 0x66, 0xe7, 0xba, 0xae, 0x50, 0x52, 0xab,
  0x05, 0xf0, 0x0d, 0x73, 0x3b, 0x04, 0x20, 0xfe, 0xdd, 0xf5, 0xb4, 0x5f, 0x0a, 0xb5, 0xc0, 0xa0,
  0x71, 0xa5, 0x2d, 0x60, 0x72, 0x93, 0x39, 0x08, 0x83, 0x21, 0x5c, 0x87, 0xb1, 0xe0, 0x00, 0xc3,
  0x12, 0x91, 0x8a, 0x02, 0x1c, 0xe6, 0x45, 0xc2, 0xc4, 0xfd, 0xbf, 0x44, 0xa1, 0x4c, 0x33, 0xc5,
  0x84, 0x23, 0x7c, 0xb0, 0x25, 0x15, 0x35, 0x69, 0xff, 0x94, 0x4d, 0x70, 0xa2, 0xaf, 0xcd, 0xd6,
  0x6c, 0xb7, 0xf8, 0x09, 0xf3, 0x67, 0xa4, 0xea, 0xec, 0xb6, 0xd4, 0xd2, 0x14, 0x1e, 0xe1, 0x24,
  0x38, 0xc6, 0xdb, 0x4b, 0x7a, 0x3a, 0xde, 0x5e, 0xdf, 0x95, 0xfc, 0xaa, 0xd7, 0xce, 0x07, 0x0f,
  0x3d, 0x58, 0x9a, 0x98, 0x9c, 0xf2, 0xa7, 0x11, 0x7e, 0x8b, 0x43, 0x03, 0xe2, 0xdc, 0xe5, 0xb2,
  0x4e, 0xc7, 0x6d, 0xe9, 0x27, 0x40, 0xd8, 0x37, 0x92, 0x8f, 0x01, 0x1d, 0x53, 0x3e, 0x59, 0xc1,
  0x4f, 0x32, 0x16, 0xfa, 0x74, 0xfb, 0x63, 0x9f, 0x34, 0x1a, 0x2a, 0x5a, 0x8d, 0xc9, 0xcf, 0xf6,
  0x90, 0x28, 0x88, 0x9b, 0x31, 0x0e, 0xbd, 0x4a, 0xe8, 0x96, 0xa6, 0x0c, 0xc8, 0x79, 0xbc, 0xbe,
  0xef, 0x6e, 0x46, 0x97, 0x5b, 0xed, 0x19, 0xd9, 0xac, 0x99, 0xa8, 0x29, 0x64, 0x1f, 0xad, 0x55,
  0x13, 0xbb, 0xf7, 0x6f, 0xb9, 0x47, 0x2f, 0xee, 0xb8, 0x7b, 0x89, 0x30, 0xd3, 0x7f, 0x76, 0x82]

structure Version where
  sbox : Bytes
  /-- First row of the circulant matrix of MixRows. -/
  mix : List Nat

def final : Version := { sbox := sboxFinal, mix := [1, 1, 4, 1, 8, 5, 2, 9] }
def version0 : Version := { sbox := sboxOld, mix := [1, 1, 3, 1, 5, 8, 9, 5] }
/-- Whirlpool-T: the final S-box with the first diffusion matrix. -/
def versionT : Version := { sbox := sboxFinal, mix := [1, 1, 3, 1, 5, 8, 9, 5] }

def xtime (a : Byte) : Byte := (a <<< 1) ^^^ (if a.msb then 0x1d else 0)
/-- Multiplication by a constant below 16. -/
def mul (c : Nat) (a : Byte) : Byte :=
  (if c.testBit 0 then a else 0) ^^^ (if c.testBit 1 then xtime a else 0) ^^^ (if c.testBit 2 then xtime (xtime a) else 0) ^^^
  (if c.testBit 3 then xtime (xtime (xtime a)) else 0)

def entry (M : Bytes) (i j : Nat) : Byte := at8 M (8 * i + j)
def matrix (f : Nat → Nat → Byte) : Bytes := (List.range 64).map fun t => f (t / 8) (t % 8)

/-- γ -/
def subBytes (V : Version) (M : Bytes) : Bytes := matrix fun i j => at8 V.sbox (entry M i j).toNat
/-- π: column j moves down by j positions. -/
def shiftColumns (M : Bytes) : Bytes := matrix fun i j => entry M ((i + 8 - j) % 8) j
/-- Entry (k,j) of the circulant matrix. -/
def coef (V : Version) (k j : Nat) : Nat := V.mix.getD ((j + 8 - k) % 8) 0
/-- θ -/
def mixRows (V : Version) (M : Bytes) : Bytes := matrix fun i j => (List.range 8).foldl (fun a k => a ^^^ mul (coef V k j) (entry M i k)) 0
/-- σ -/
def addKey (K M : Bytes) : Bytes := matrix fun i j => entry M i j ^^^ entry K i j
def round (V : Version) (K M : Bytes) : Bytes := addKey K (mixRows V (shiftColumns (subBytes V M)))
/-- Round constant r = 1, …, 10: the first row holds S-box entries. -/
def rcon (V : Version) (r : Nat) : Bytes := matrix fun i j => if i = 0 then at8 V.sbox (8 * (r - 1) + j) else 0

/-- The block cipher W with key K, all ten rounds, with the key schedule beside it. -/
def rounds (V : Version) (K M : Bytes) : Bytes × Bytes :=
  [1, 2, 3, 4, 5, 6, 7, 8, 9, 10].foldl (fun (km : Bytes × Bytes) r =>
    let K := round V (rcon V r) km.1
    (K, round V K km.2)) (K, addKey K M)
/-- Miyaguchi-Preneel. -/
def compress (V : Version) (H M : Bytes) : Bytes := addKey (addKey M (rounds V H M).2) H

/-- The length in bits is written in 256 bits. -/
def pad (m : Bytes) : Bytes := mdPad 64 0x80 (beBytes 32 (8 * m.length)) m
def hash (V : Version) (m : Bytes) : Bytes := (fullBlocks 64 (pad m)).foldl (compress V) (zeros 64)

end Verif.Spec.Whirlpool
