import Verif.Spec.Groestl
/-
The AES round without key addition (FIPS 197), on bytes; the state as four 32-bit columns, first byte of a column in the low bits.
-/
namespace Verif.Spec.AES
open Spec.Groestl (sbox mul)

abbrev Col4 := U32 × U32 × U32 × U32

def add (a b : Col4) : Col4 := (a.1 ^^^ b.1, a.2.1 ^^^ b.2.1, a.2.2.1 ^^^ b.2.2.1, a.2.2.2 ^^^ b.2.2.2)

def bytes (q : Col4) : Bytes := le32 q.1 ++ le32 q.2.1 ++ le32 q.2.2.1 ++ le32 q.2.2.2
def cols (b : Bytes) : Col4 := (getLE32 b 0, getLE32 b 4, getLE32 b 8, getLE32 b 12)

def subBytes (b : Bytes) : Bytes := b.map (fun x => at8 sbox x.toNat)
/-- Row r of column c comes from column c + r. -/
def shiftRows (b : Bytes) : Bytes := (List.range 16).map (fun i => at8 b (4 * ((i / 4 + i % 4) % 4) + i % 4))
/-- The circulant matrix 2 3 1 1. -/
def coef (r k : Nat) : Nat := [2, 3, 1, 1].getD ((k + 4 - r) % 4) 0
def mixColumns (b : Bytes) : Bytes :=
  (List.range 16).map (fun i => (List.range 4).foldl (fun a k => a ^^^ mul (coef (i % 4) k) (at8 b (4 * (i / 4) + k))) 0)

def round (q : Col4) : Col4 := cols (mixColumns (shiftRows (subBytes (bytes q))))

end Verif.Spec.AES
