import Verif.Spec.AES
/-
The hash function ECHO (Benadjila et al., second-round SHA-3 candidate), on bytes.  The state of the compression function is a 4 × 4 square of
128-bit words, 256 bytes; word i stands in column i / 4 and row i mod 4.  The length and the counter are kept in 64 bits (the standard allows
128): the two agree for messages below 2^61 bytes.
-/
namespace Verif.Spec.Echo
open Spec.Groestl (mul)
open Spec.AES (subBytes shiftRows mixColumns coef)

def xorBytes (a b : Bytes) : Bytes := (List.range a.length).map fun i => at8 a i ^^^ at8 b i

/-- One AES round with the key k (FIPS 197). -/
def aes (w k : Bytes) : Bytes := xorBytes (mixColumns (shiftRows (subBytes w))) k

def word (W : Bytes) (i : Nat) : Bytes := (W.drop (16 * i)).take 16

/-- BIG.SubWords: two AES rounds on each word, with the counter and the salt as keys. -/
def subWords (κ : U64) (salt W : Bytes) : Bytes :=
  (List.range 16).flatMap fun i => aes (aes (word W i) (le64 (κ + BitVec.ofNat 64 i) ++ zeros 8)) salt

/-- BIG.ShiftRows: row r of column c comes from column c + r. -/
def bigShiftRows (W : Bytes) : Bytes :=
  (List.range 256).map fun n => at8 W (16 * (4 * ((n / 64 + n / 16 % 4) % 4) + n / 16 % 4) + n % 16)

/-- BIG.MixColumns: MixColumns of AES on the four bytes at the same place of the words of a column. -/
def bigMixColumns (W : Bytes) : Bytes :=
  (List.range 256).map fun n =>
    (List.range 4).foldl (fun a k => a ^^^ mul (coef (n / 16 % 4) k) (at8 W (16 * (4 * (n / 64) + k) + n % 16))) 0

def bigRound (salt : Bytes) (κ : U64) (W : Bytes) : Bytes := bigMixColumns (bigShiftRows (subWords κ salt W))

/-- The rounds; the counter goes up by one with each word. -/
def rounds (salt : Bytes) (κ : U64) : Nat → Bytes → Bytes
  | 0, W => W
  | n + 1, W => bigRound salt (κ + BitVec.ofNat 64 (16 * n)) (rounds salt κ n W)

/-- Sizes in bytes: digests up to 32 bytes have a chaining value of 64 bytes, the others one of 128. -/
def vLen (n : Nat) : Nat := if n ≤ 32 then 64 else 128
def blockLen (n : Nat) : Nat := 256 - vLen n
def numRounds (n : Nat) : Nat := if n ≤ 32 then 8 else 10

/-- The compression function: BIG.Final adds up all words of the row before and after the rounds that stand at the place of a word of V. -/
def compress (n : Nat) (salt V M : Bytes) (κ : U64) : Bytes :=
  let W := rounds salt κ (numRounds n) (V ++ M)
  (List.range (vLen n)).map fun i =>
    (List.range (256 / vLen n)).foldl (fun a k => a ^^^ at8 (V ++ M) (i + vLen n * k) ^^^ at8 W (i + vLen n * k)) 0

/-- The chaining value at the start: the digest size in bits, in each word. -/
def iv (n : Nat) : Bytes := (List.range (vLen n / 16)).flatMap fun _ => le64 (BitVec.ofNat 64 (8 * n)) ++ zeros 8

/-- Padding: marker bit, zeros, digest size on 16 bits, length in bits on 128. -/
def pad (n : Nat) (m : Bytes) : Bytes :=
  m ++ 0x80#8 :: zeros ((2 * blockLen n - 19 - m.length % blockLen n) % blockLen n) ++
    [BitVec.ofNat 8 (8 * n), BitVec.ofNat 8 (8 * n / 256)] ++ le64 (BitVec.ofNat 64 (8 * m.length)) ++ zeros 8

/-- The counter of block i: the number of message bits up to its end, zero if the block holds none. -/
def counter (n : Nat) (m : Bytes) (i : Nat) : U64 :=
  if blockLen n * i < m.length then BitVec.ofNat 64 (8 * min (blockLen n * (i + 1)) m.length) else 0

/-- ECHO with a digest of n bytes. -/
def hash (n : Nat) (salt m : Bytes) : Bytes :=
  (((fullBlocks (blockLen n) (pad n m)).zipIdx).foldl (fun V b => compress n salt V b.1 (counter n m b.2)) (iv n)).take n

end Verif.Spec.Echo
