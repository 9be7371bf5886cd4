import Verif.Padding
import Verif.Words
/-
Luffa v2 (SHA-3 submission): message injection for w = 3, 4, 5, the permutations Q_j, the round and the finalisation.
A block of 256 bits is a list of eight words.
-/
namespace Verif.Spec.Luffa

def g (a : List U32) (i : Nat) : U32 := a.getD i 0

/-- Multiplication by 2 in GF(2)[x]/(x^8 + x^4 + x^3 + x + 1), the words being coefficients. -/
def mul2 (a : List U32) : List U32 := [g a 7, g a 0 ^^^ g a 7, g a 1, g a 2 ^^^ g a 7, g a 3 ^^^ g a 7, g a 4, g a 5, g a 6]
def xor8 (a b : List U32) : List U32 := (List.range 8).map fun i => g a i ^^^ g b i
def pow2 (j : Nat) (a : List U32) : List U32 := match j with | 0 => a | j + 1 => mul2 (pow2 j a)

/-- The sum of all the blocks of a state. -/
def total (V : List (List U32)) : List U32 := V.tail.foldl xor8 (V.headD [])
def at' (V : List (List U32)) (j : Nat) : List U32 := V.getD j []

/-- First layer of every message injection: each block plus twice the sum of all. -/
def layer (w : Nat) (V : List (List U32)) : List (List U32) := (List.range w).map fun j => xor8 (mul2 (total V)) (at' V j)
/-- 2·X_j + X_{j+1} (indices mod w) -/
def up (w : Nat) (V : List (List U32)) : List (List U32) := (List.range w).map fun j => xor8 (mul2 (at' V j)) (at' V ((j + 1) % w))
/-- 2·X_j + X_{j-1} (indices mod w) -/
def down (w : Nat) (V : List (List U32)) : List (List U32) := (List.range w).map fun j => xor8 (mul2 (at' V j)) (at' V ((j + w - 1) % w))

/-- The message injection MI. -/
def mi (w : Nat) (V : List (List U32)) (M : List U32) : List (List U32) :=
  let X := layer w V
  let X := if w = 5 then down 5 (up 5 X) else if w = 4 then down 4 X else X
  (List.range w).map fun j => xor8 (pow2 j M) (at' X j)

/-- The S-box of SubCrumb. -/
def S : List Nat := [13, 14, 0, 1, 5, 10, 7, 6, 11, 3, 9, 12, 15, 8, 2, 4]

/-- The positions at which the four words have the bits of x (bit j of x in the word j). -/
def minterm (a : List U32) (x : Nat) : U32 := ((List.range 4).map fun j => if x.testBit j then g a j else ~~~ g a j).foldl (· &&& ·) (BitVec.allOnes 32)
/-- The S-box on the 32 columns of four words. -/
def subCrumb (a : List U32) : List U32 :=
  (List.range 4).map fun k => ((List.range 16).map fun x => if (S.getD x 0).testBit k then minterm a x else 0).foldl (· ||| ·) 0

def mixWord (x y : U32) : U32 × U32 :=
  let y := y ^^^ x
  let x := x.rotateLeft 2 ^^^ y
  let y := y.rotateLeft 14 ^^^ x
  let x := x.rotateLeft 10 ^^^ y
  let y := y.rotateLeft 1
  (x, y)

/-- One step of Q_j with its constants. -/
def step (c0 c4 : U32) (a : List U32) : List U32 :=
  let lo := subCrumb [g a 0, g a 1, g a 2, g a 3]
  let hi := subCrumb [g a 5, g a 6, g a 7, g a 4]
  let m0 := mixWord (g lo 0) (g hi 3)
  let m1 := mixWord (g lo 1) (g hi 0)
  let m2 := mixWord (g lo 2) (g hi 1)
  let m3 := mixWord (g lo 3) (g hi 2)
  [m0.1 ^^^ c0, m1.1, m2.1, m3.1, m0.2 ^^^ c4, m1.2, m2.2, m3.2]

/-- The generator of the constants. -/
def lfsr (x : U64) : U64 := if x.msb then (x <<< 1) ^^^ 0xc4d6496c55c61c8d else x <<< 1
def hi (x : U64) : U32 := x.extractLsb' 32 32
def seeds : List U64 := [0x181cca53380cde06, 0x5b6f0876f16f8594, 0x7e106ce938979cb0, 0xbb62f36492e93c29, 0x9a025047cff2a940]
def gen : Nat → U64 → U64
  | 0, x => x
  | r + 1, x => let y := gen r x; (lfsr ((lfsr y).rotateLeft 32)).rotateLeft 32
def c0 (j r : Nat) : U32 := hi (lfsr (gen r (seeds.getD j 0)))
def c4 (j r : Nat) : U32 := hi (lfsr ((lfsr (gen r (seeds.getD j 0))).rotateLeft 32))

/-- Words 4 … 7 of the block j are rotated by j before Q_j. -/
def tweak (j : Nat) (a : List U32) : List U32 := (List.range 8).map fun i => if i < 4 then g a i else (g a i).rotateLeft j
def Q (j : Nat) (a : List U32) : List U32 := (List.range 8).foldl (fun a r => step (c0 j r) (c4 j r) a) a

def round (w : Nat) (V : List (List U32)) (M : List U32) : List (List U32) :=
  (List.range w).map fun j => Q j (tweak j (at' (mi w V M) j))

/-- The starting variables. -/
def V0 : List (List U32) :=
  [[0x6d251e69, 0x44b051e0, 0x4eaa6fb4, 0xdbf78465, 0x6e292011, 0x90152df4, 0xee058139, 0xdef610bb],
   [0xc3b44b95, 0xd9d2f256, 0x70eee9a0, 0xde099fa3, 0x5d9b0557, 0x8fc944b3, 0xcf1ccf0e, 0x746cd581],
   [0xf7efc89d, 0x5dba5781, 0x04016ce5, 0xad659c05, 0x0306194f, 0x666d1836, 0x24aa230a, 0x8b264ae7],
   [0x858075d5, 0x36d79cce, 0xe571f7d7, 0x204b1f67, 0x35870c6a, 0x57e9e923, 0x14bcb808, 0x7cde72ce],
   [0x6c68e9be, 0x5ec41e22, 0xc825b7c7, 0xaffb4363, 0xf5df3999, 0x0fc688f1, 0xb07224cc, 0x03e86cea]]

def words (b : Bytes) : List U32 := (List.range 8).map fun i => getBE32 b (4 * i)
/-- A 1 bit and zeros up to a multiple of 256 bits. -/
def pad (m : Bytes) : Bytes := mdPad 32 0x80 [] m

/-- The hash with w permutations, n words of output (the 2nd output block comes after a second blank round). -/
def luffa (w n : Nat) (m : Bytes) : Bytes :=
  let V := (fullBlocks 32 (pad m)).foldl (fun V b => round w V (words b)) (V0.take w)
  let zero : List U32 := List.replicate 8 0
  let V1 := round w V zero
  let V2 := round w V1 zero
  ((total V1 ++ total V2).take n).flatMap be32

def luffa224 := luffa 3 7
def luffa256 := luffa 3 8
def luffa384 := luffa 4 12
def luffa512 := luffa 5 16
end Verif.Spec.Luffa
