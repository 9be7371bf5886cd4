import Verif.Spec.GFBlock
/-
PMAC (J. Black, P. Rogaway, "A Block-Cipher Mode of Operation for Parallelizable Message Authentication", 2002,
section 4; with the offsets of PMAC1's paper: Offset ← Offset ⊕ L(ntz(i))).
-/
namespace Verif.Spec

/-- Number of trailing zero bits. -/
def ntz (i : Nat) : Nat := if h : i = 0 ∨ i % 2 = 1 then 0 else ntz (i / 2) + 1
termination_by i
decreasing_by omega

/-- Multiplication by x^-1: shift right, and add x^(n-1) + R(x)/x if a bit was shifted out. -/
def half (R : Nat) (b : Bytes) : Bytes :=
  beBytes b.length ((beNat b / 2) ^^^ (if beNat b % 2 = 1 then (256 ^ b.length / 2) ^^^ (R / 2) else 0))

/-- L(i) = x^i · L -/
def pmacL (R : Nat) (L : Bytes) : Nat → Bytes
  | 0 => L
  | i + 1 => dbl R (pmacL R L i)

/-- Offset and sum after the blocks, the first of which has number `i`. -/
def pmacSum (R : Nat) (E : Bytes → Bytes) (L : Bytes) : Nat → Bytes → Bytes → List Bytes → Bytes × Bytes
  | _, off, sum, [] => (off, sum)
  | i, off, sum, M :: Ms =>
    let off' := bxor off (pmacL R L (ntz i))
    pmacSum R E L (i + 1) off' (bxor sum (E (bxor M off'))) Ms

/-- PMAC with tags of `t` bytes for the cipher `E` with blocks of `n` bytes. -/
def pmac (R n : Nat) (E : Bytes → Bytes) (t : Nat) (m : Bytes) : Bytes :=
  let L := E (zeros n)
  let (M, last) := cut n m
  let S := (pmacSum R E L 1 (zeros n) (zeros n) M).2
  let final := if last.length = n then bxor (bxor S last) (half R L) else bxor S (padBlock n last)
  (E final).take t

end Verif.Spec
