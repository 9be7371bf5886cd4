import Verif.Basic
/-
Blocks as elements of GF(2^n), most significant bit first, as CMAC (NIST SP 800-38B) and PMAC use them.
-/
namespace Verif.Spec

/-- A byte string read as a big-endian number. -/
def beNat (b : Bytes) : Nat := b.foldl (fun a x => a * 256 + x.toNat) 0
/-- The `n` big-endian bytes of a number. -/
def beBytes (n x : Nat) : Bytes := (List.range n).map fun i => BitVec.ofNat 8 (x / 256 ^ (n - 1 - i))
/-- Multiplication by `x` modulo the polynomial `x^n + R(x)`: shift left, and add `R` if a bit was shifted out. -/
def dbl (R : Nat) (b : Bytes) : Bytes :=
  beBytes b.length ((2 * beNat b % 256 ^ b.length) ^^^ (if 256 ^ b.length ≤ 2 * beNat b then R else 0))
/-- Bytewise exclusive or. -/
def bxor (a b : Bytes) : Bytes := List.zipWith (· ^^^ ·) a b
/-- Append the bit 1, then zeros up to the block length. -/
def padBlock (n : Nat) (b : Bytes) : Bytes := b ++ [0x80#8] ++ zeros (n - 1 - b.length)

/-- The constants of the minimal polynomials: 64 and 128 bits from SP 800-38B, the larger ones from the package
documentation (cmac/cmac.go:29-33). -/
def gfPoly : Nat → Nat
  | 8 => 0x1B
  | 16 => 0x87
  | 32 => 0x425
  | 64 => 0x125
  | 128 => 0x80043
  | _ => 0

/-- The message cut into blocks of `n` bytes; the last one may be short, and is empty only for the empty message. -/
def cut (n : Nat) (m : Bytes) : List Bytes × Bytes :=
  ((List.range ((m.length - 1) / n)).map fun i => (m.drop (i * n)).take n, m.drop ((m.length - 1) / n * n))

/-- CMAC, SP 800-38B §6.2, for a cipher `E` with blocks of `n` bytes, with tags of `t` bytes. -/
def cmac (R n : Nat) (E : Bytes → Bytes) (t : Nat) (m : Bytes) : Bytes :=
  let L := E (zeros n)
  let K1 := dbl R L
  let K2 := dbl R K1
  let (M, last) := cut n m
  let final := if last.length = n then bxor K1 last else bxor K2 (padBlock n last)
  let C := M.foldl (fun C Mi => E (bxor C Mi)) (zeros n)
  (E (bxor C final)).take t

end Verif.Spec
