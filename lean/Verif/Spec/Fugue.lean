import Verif.Words
import Verif.Spec.Groestl
/-
Fugue (Halevi, Hall, Jutla: The Hash Function Fugue, 2009), written from the specification.
A state is a list of 30 or 36 columns; a column is a word of four bytes, row 0 first.
-/
namespace Verif.Spec.Fugue
open Spec.Groestl (sbox mul)

def col (S : List U32) (i : Nat) : U32 := S.getD i 0
def row (x : U32) (i : Nat) : Byte := (be32 x).getD i 0

/-- Rotation of the columns to the right. -/
def ror (n : Nat) (S : List U32) : List U32 := S.drop (S.length - n) ++ S.take (S.length - n)
/-- S_i += S_j -/
def add (i j : Nat) (S : List U32) : List U32 := S.set i (col S i ^^^ col S j)

/-- The matrix M: rows 1 4 7 1, 1 1 4 7, 7 1 1 4, 4 7 1 1. -/
def M (i k : Nat) : Nat := [1, 4, 7, 1].getD ((k + 4 - i) % 4) 0

/-- The matrix before the rotation of rows: M·U plus the diagonal matrix of the sums of the other entries of each row, times M transposed. -/
def V (U : Nat → Nat → Byte) (i k : Nat) : Byte :=
  ((List.range 4).map fun r => mul (M i r) (U r k)).foldl (· ^^^ ·) 0 ^^^
  (((List.range 4).filter (· ≠ i)).map fun j => mul (M k i) (U i j)).foldl (· ^^^ ·) 0

/-- Super-Mix of four columns, without the substitution: row i is rotated by i. -/
def superMix (U : Nat → Nat → Byte) (j : Nat) : U32 :=
  getBE32 ((List.range 4).map fun i => V U i ((i + j) % 4))

/-- SMIX: substitution in the first four columns, then Super-Mix. -/
def smix4 (X : List U32) : List U32 := (List.range 4).map (superMix fun i j => at8 sbox (row (col X j) i).toNat)
def smix (S : List U32) : List U32 := smix4 (S.take 4) ++ S.drop 4

def cmix (S : List U32) : List U32 :=
  let h := S.length / 2
  add (h + 2) 6 (add (h + 1) 5 (add h 4 (add 2 6 (add 1 5 (add 0 4 S)))))

/-- ROR3, CMIX, SMIX -/
def sub (S : List U32) : List U32 := smix (cmix (ror 3 S))
/-- n of them -/
def subs : Nat → List U32 → List U32
  | 0, S => S
  | n + 1, S => subs n (sub S)

/-- TIX(w) -/
def tix256 (w : U32) (S : List U32) : List U32 := add 1 24 (add 8 0 ((add 10 0 S).set 0 w))
def tix384 (w : U32) (S : List U32) : List U32 := add 4 30 (add 1 27 (add 8 0 ((add 16 0 S).set 0 w)))
def tix512 (w : U32) (S : List U32) : List U32 := add 7 30 (add 4 27 (add 1 24 (add 8 0 ((add 22 0 S).set 0 w))))

def iter (n : Nat) (f : List U32 → List U32) : List U32 → List U32 := match n with
  | 0 => fun S => S
  | n + 1 => fun S => iter n f (f S)

/-- The final rounds. -/
def G256 (S : List U32) : List U32 :=
  add 15 0 (add 4 0 (iter 13 (fun S => smix (ror 14 (add 16 0 (add 4 0 (smix (ror 15 (add 15 0 (add 4 0 S)))))))) (subs 10 S)))
def G384 (S : List U32) : List U32 :=
  add 24 0 (add 12 0 (add 4 0 (iter 13 (fun S =>
    let S := smix (ror 12 (add 24 0 (add 12 0 (add 4 0 S))))
    let S := smix (ror 12 (add 24 0 (add 13 0 (add 4 0 S))))
    smix (ror 11 (add 25 0 (add 13 0 (add 4 0 S))))) (subs 18 S))))
def G512 (S : List U32) : List U32 :=
  add 27 0 (add 18 0 (add 9 0 (add 4 0 (iter 13 (fun S =>
    let S := smix (ror 9 (add 27 0 (add 18 0 (add 9 0 (add 4 0 S)))))
    let S := smix (ror 9 (add 27 0 (add 18 0 (add 10 0 (add 4 0 S)))))
    let S := smix (ror 9 (add 27 0 (add 19 0 (add 10 0 (add 4 0 S)))))
    smix (ror 8 (add 28 0 (add 19 0 (add 10 0 (add 4 0 S)))))) (subs 32 S)))))

/-- Padding: zeros up to a whole word, then the length in bits in 64 bits. -/
def pad (m : Bytes) : Bytes := m ++ zeros ((4 - m.length % 4) % 4) ++ be64 (BitVec.ofNat 64 (8 * m.length))

structure Variant where
  cols : Nat
  iv : List U32
  tix : U32 → List U32 → List U32
  subs : Nat
  G : List U32 → List U32
  out : List Nat

/-- The state after the words of a whole number of words. -/
def absorb (v : Variant) (m : Bytes) : List U32 :=
  (fullBlocks 4 m).foldl (fun S b => Fugue.subs v.subs (v.tix (getBE32 b) S)) (List.replicate (v.cols - v.iv.length) 0 ++ v.iv)

def hash (v : Variant) (m : Bytes) : Bytes := v.out.flatMap fun i => be32 (col (v.G (absorb v (pad m))) i)

def iv224 : List U32 := [0xf4c9120d, 0x6286f757, 0xee39e01c, 0xe074e3cb, 0xa1127c62, 0x9a43d215, 0xbd8d679a]
def iv256 : List U32 := [0xe952bdde, 0x6671135f, 0xe0d4f668, 0xd2b0b594, 0xf96c621d, 0xfbf929de, 0x9149e899, 0x34f8c248]
def iv384 : List U32 := [0xaa61ec0d, 0x31252e1f, 0xa01db4c7, 0x00600985, 0x215ef44a, 0x741b5e9c, 0xfa693e9a, 0x473eb040, 0xe502ae8a, 0xa99c25e0, 0xbc95517c, 0x5c1095a1]
def iv512 : List U32 := [0x8807a57e, 0xe616af75, 0xc5d3e4db, 0xac9ab027, 0xd915f117, 0xb6eecc54, 0x06e8020b, 0x4a92efd1, 0xaac6e2c9, 0xddb21398, 0xcae65838, 0x437f203f, 0x25ea78e7, 0x951fddd6, 0xda6ed11d, 0xe13e3567]

def fugue224 : Bytes → Bytes := hash ⟨30, iv224, tix256, 2, G256, [1, 2, 3, 4, 15, 16, 17]⟩
def fugue256 : Bytes → Bytes := hash ⟨30, iv256, tix256, 2, G256, [1, 2, 3, 4, 15, 16, 17, 18]⟩
def fugue384 : Bytes → Bytes := hash ⟨36, iv384, tix384, 3, G384, [1, 2, 3, 4, 12, 13, 14, 15, 24, 25, 26, 27]⟩
def fugue512 : Bytes → Bytes := hash ⟨36, iv512, tix512, 4, G512, [1, 2, 3, 4, 9, 10, 11, 12, 18, 19, 20, 21, 27, 28, 29, 30]⟩

end Verif.Spec.Fugue
