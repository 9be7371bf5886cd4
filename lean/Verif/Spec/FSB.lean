import Verif.Padding
import Verif.Spec.Whirlpool
/-
FSB (Augot, Finiasz, Gaborit, Manuel, Sendrier; SHA-3 submission): syndrome computation with a quasi-cyclic matrix, then Whirlpool.
Bits of a byte string are numbered from 0, most significant bit of the first byte first.  `pi` is the sequence of bytes the matrix is made of
(the binary expansion of π in the submission).
-/
namespace Verif.Spec.FSB

def bit (b : Nat → Byte) (i : Nat) : Bool := (b (i / 8)).getLsbD (7 - i % 8)
def bitOf (b : Bytes) (i : Nat) : Bool := bit (at8 b) i

/-- n columns in w regular words, syndromes of r bits, circulant blocks of length p. -/
structure Params where
  hashbits : Nat
  n : Nat
  w : Nat
  r : Nat
  p : Nat

def fsb48 : Params := ⟨48, 3 * 2 ^ 17, 24, 192, 197⟩
def fsb160 : Params := ⟨160, 5 * 2 ^ 18, 80, 640, 653⟩
def fsb224 : Params := ⟨224, 7 * 2 ^ 18, 112, 896, 907⟩
def fsb256 : Params := ⟨256, 2 ^ 21, 128, 1024, 1061⟩
def fsb384 : Params := ⟨384, 23 * 2 ^ 16, 184, 1472, 1483⟩
def fsb512 : Params := ⟨512, 31 * 2 ^ 16, 248, 1984, 1987⟩

/-- The first p bits of the k-th string of ⌊p/8⌋+1 bytes of π. -/
def vector (pi : Nat → Byte) (P : Params) (k i : Nat) : Bool := bit pi (8 * (k * (P.p / 8 + 1)) + i)
/-- Bit t of column c of the matrix: the vector of the block of c, rotated by the place of c in the block, truncated to r bits. -/
def column (pi : Nat → Byte) (P : Params) (c t : Nat) : Bool := vector pi P (c / P.r) ((t + P.p - c % P.r) % P.p)

/-- The number written by `n` bits from position `i`, most significant first. -/
def num (b : Bytes) (i : Nat) : Nat → Nat
  | 0 => 0
  | n + 1 => 2 * num b i n + (bitOf b (i + n)).toNat

/-- Bits of the message per compression. -/
def inputBits (P : Params) : Nat := P.w * Nat.log2 (P.n / P.w) - P.r
/-- The i-th column selected by syndrome s and message part m. -/
def select (P : Params) (s m : Bytes) (i : Nat) : Nat :=
  i * (P.n / P.w) + num s (i * (P.r / P.w)) (P.r / P.w) + 2 ^ (P.r / P.w) * num m (i * (inputBits P / P.w)) (inputBits P / P.w)
/-- The byte string with the given bits. -/
def pack (r : Nat) (f : Nat → Bool) : Bytes :=
  (List.range (r / 8)).map fun j => (List.range 8).foldl (fun a u => (a <<< 1) ||| (if f (8 * j + u) then 1 else 0)) (0 : Byte)
/-- The new syndrome: the sum of the w selected columns. -/
def compress (pi : Nat → Byte) (P : Params) (s m : Bytes) : Bytes :=
  pack P.r fun t => (List.range P.w).foldl (fun a i => a ^^ column pi P (select P s m i) t) false

def pad (P : Params) (m : Bytes) : Bytes := mdPad (inputBits P / 8) 0x80 (be64 (BitVec.ofNat 64 (8 * m.length))) m
def hash (pi : Nat → Byte) (P : Params) (m : Bytes) : Bytes :=
  (Whirlpool.hash Whirlpool.final ((fullBlocks (inputBits P / 8) (pad P m)).foldl (compress pi P) (zeros (P.r / 8)))).take (P.hashbits / 8)

end Verif.Spec.FSB
