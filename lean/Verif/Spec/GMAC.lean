import Verif.Basic
/-
GMAC, NIST SP 800-38D: multiplication of blocks (§6.3), GHASH (§6.4), GCM authentication with an empty plaintext (§7.1).
A block is a `BitVec 128`; the leftmost bit is the coefficient of x^0.
-/
namespace Verif.Spec.GCM

/-- A 16-byte string as a block. -/
def block (b : Bytes) : BitVec 128 := getBE64 b 0 ++ getBE64 b 8
/-- A block as a 16-byte string. -/
def bytes (x : BitVec 128) : Bytes := be64 (x.extractLsb' 64 64) ++ be64 (x.extractLsb' 0 64)

/-- R = 11100001 || 0^120 -/
def R : BitVec 128 := 0xE1#128 <<< 120

/-- Algorithm 1, X • Y: (Z, V) after the first `n` bits of X. -/
def mulAux (X Y : BitVec 128) : Nat → BitVec 128 × BitVec 128
  | 0 => (0, Y)
  | n + 1 =>
    let (Z, V) := mulAux X Y n
    (if X.getMsbD n then Z ^^^ V else Z, if V.getLsbD 0 then (V >>> 1) ^^^ R else V >>> 1)
def mul (X Y : BitVec 128) : BitVec 128 := (mulAux X Y 128).1

/-- Zero bytes up to a multiple of 16. -/
def pad16 (b : Bytes) : Bytes := b ++ zeros ((16 - b.length % 16) % 16)
/-- GHASH_H(X), X a multiple of 16 bytes. -/
def ghash (H : BitVec 128) (X : Bytes) : BitVec 128 :=
  (fullBlocks 16 X).foldl (fun Y Xi => mul (Y ^^^ block Xi) H) 0
/-- The number of bits of `b` as 64 bits. -/
def bitLen (b : Bytes) : Bytes := be64 (BitVec.ofNat 64 (8 * b.length))

/-- The pre-counter block J0. -/
def J0 (H : BitVec 128) (iv : Bytes) : Bytes :=
  if iv.length = 12 then iv ++ [0, 0, 0, 1] else bytes (ghash H (pad16 iv ++ zeros 8 ++ bitLen iv))

/-- GMAC: the tag of the additional data `A` with no plaintext. -/
def gmac (E : Bytes → Bytes) (iv A : Bytes) : Bytes :=
  let H := block (E (zeros 16))
  List.zipWith (· ^^^ ·) (bytes (ghash H (pad16 A ++ bitLen A ++ zeros 8))) (E (J0 H iv))

end Verif.Spec.GCM
