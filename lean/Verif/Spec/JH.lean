import Verif.Padding
/-
JH (Hongjun Wu, SHA-3 finalist version of 2011), written from the specification: 4-bit elements, the two S-boxes, the MDS code over GF(2^4), the
permutation P_d, and the grouping and degrouping of the state of 1024 bits.
-/
namespace Verif.Spec.JH

abbrev Nib := BitVec 4

/-- Bit i of a byte string, the most significant bit of a byte first. -/
def bit (b : Bytes) (i : Nat) : Bool := (at8 b (i / 8)).getLsbD (7 - i % 8)
/-- The byte of eight bits. -/
def byteOf (f : Nat → Bool) : Byte := BitVec.ofBoolListBE ((List.range 8).map f) |>.setWidth 8
/-- A 4-bit element of four bits, the first one the most significant. -/
def nibOf (a b c d : Bool) : Nib := BitVec.ofBool a ++ BitVec.ofBool b ++ BitVec.ofBool c ++ BitVec.ofBool d

def S0 : List Nib := [9, 0, 4, 11, 13, 12, 3, 15, 1, 10, 2, 6, 7, 5, 8, 14]
def S1 : List Nib := [3, 12, 6, 13, 5, 7, 1, 9, 15, 2, 0, 4, 11, 10, 14, 8]
def S (c : Bool) (x : Nib) : Nib := (if c then S1 else S0).getD x.toNat 0

/-- Multiplication by 2 in GF(2^4) modulo x^4 + x + 1. -/
def mul2 (x : Nib) : Nib := (x <<< 1) ^^^ (if x.msb then 3 else 0)
/-- The linear transformation on a pair. -/
def L (a b : Nib) : Nib × Nib := (a ^^^ mul2 (b ^^^ mul2 a), b ^^^ mul2 a)

def sLayer (d : Nat) (c : List Bool) (a : List Nib) : List Nib := (List.range (2 ^ d)).map fun i => S (c.getD i false) (a.getD i 0)
def lLayer (d : Nat) (a : List Nib) : List Nib :=
  (List.range (2 ^ d)).map fun i => if i % 2 = 0 then (L (a.getD i 0) (a.getD (i + 1) 0)).1 else (L (a.getD (i - 1) 0) (a.getD i 0)).2
/-- Source of element i under the permutation π: swap the last two of every four. -/
def piSrc (i : Nat) : Nat := if i % 4 = 2 then i + 1 else if i % 4 = 3 then i - 1 else i
/-- Source of element i under P': even elements first, then the odd ones. -/
def pPrimeSrc (d i : Nat) : Nat := if i < 2 ^ (d - 1) then 2 * i else 2 * (i - 2 ^ (d - 1)) + 1
/-- Source of element i under φ: swap neighbours in the second half. -/
def phiSrc (d i : Nat) : Nat := if i < 2 ^ (d - 1) then i else if i % 2 = 0 then i + 1 else i - 1
/-- P_d = φ ∘ P' ∘ π. -/
def perm (d : Nat) (a : List Nib) : List Nib := (List.range (2 ^ d)).map fun i => a.getD (piSrc (pPrimeSrc d (phiSrc d i))) 0
/-- The round function R_d. -/
def round (d : Nat) (c : List Bool) (a : List Nib) : List Nib := perm d (lLayer d (sLayer d c a))

/-- The 4-bit elements of 32 bytes, in order. -/
def nibs6 (b : Bytes) : List Nib := (List.range 64).map fun i => nibOf (bit b (4 * i)) (bit b (4 * i + 1)) (bit b (4 * i + 2)) (bit b (4 * i + 3))
def bits6 (a : List Nib) : List Bool := (List.range 256).map fun i => (a.getD (i / 4) 0).getLsbD (3 - i % 4)
/-- C_0: the fractional part of the square root of two. -/
def C0 : List Nib := nibs6 (hex "6a09e667f3bcc908b2fb1366ea957d3e3adec17512775099da2f590b0667322a")
/-- C_0, ..., C_{n-1}: each is the previous one after R_6 with zero constants. -/
def constsFrom : Nat → List Nib → List (List Bool)
  | 0, _ => []
  | n + 1, a => bits6 a :: constsFrom n (round 6 [] a)
def consts : List (List Bool) := constsFrom 42 C0

/-- Grouping: element 2i takes the bits i, i+256, i+512, i+768 and element 2i+1 the bits i+128, i+384, i+640, i+896. -/
def group (h : Bytes) : List Nib := (List.range 256).map fun j =>
  let i := j / 2 + 128 * (j % 2)
  nibOf (bit h i) (bit h (i + 256)) (bit h (i + 512)) (bit h (i + 768))
/-- Degrouping, the inverse. -/
def degroup (a : List Nib) : Bytes := (List.range 128).map fun n => byteOf fun t =>
  let i := 8 * n + t
  let j := 2 * (i % 128) + i / 128 % 2
  (a.getD j 0).getLsbD (3 - i / 256)

def E8 (h : Bytes) : Bytes := degroup (consts.foldl (fun a c => round 8 c a) (group h))

def xor (a b : Bytes) : Bytes := List.zipWith (· ^^^ ·) a b
/-- The compression function. -/
def F8 (h m : Bytes) : Bytes := xor (E8 (xor h (m ++ zeros 64))) (zeros 64 ++ m)

/-- Padding: a one bit, 383 + (−l mod 512) zero bits, the length in 128 bits. -/
def pad (m : Bytes) : Bytes := m ++ (0x80 :: zeros (47 + (64 - m.length % 64) % 64) ++ (be64 (BitVec.ofNat 64 (8 * m.length / 2 ^ 64)) ++ be64 (BitVec.ofNat 64 (8 * m.length))))

/-- H^(-1) is the digest size in bits in two bytes, H^(0) = F8(H^(-1), 0). -/
def iv (hs : Nat) : Bytes := F8 ([BitVec.ofNat 8 (8 * hs / 256), BitVec.ofNat 8 (8 * hs)] ++ zeros 126) (zeros 64)

/-- JH with a digest of `hs` bytes. -/
def hash (hs : Nat) (m : Bytes) : Bytes := ((fullBlocks 64 (pad m)).foldl F8 (iv hs)).drop (128 - hs)

end Verif.Spec.JH
