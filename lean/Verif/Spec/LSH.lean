import Verif.Padding
/-
LSH (KS X 3262): the wide-pipe Merkle–Damgård hash with words of w = 32 or 64 bits.  `get b i` reads a little-endian word at byte i, `put` writes one.
-/
namespace Verif.Spec.LSH

/-- The parameters that depend on the word size: number of steps, rotations for even and odd steps, the first row of step constants. -/
structure Params (w : Nat) where
  Ns : Nat
  alpha : Nat → Nat
  beta : Nat → Nat
  gamma : List Nat
  SC0 : List (BitVec w)
  get : Bytes → Nat → BitVec w
  put : BitVec w → Bytes

def lsh256 : Params 32 where
  Ns := 26
  alpha j := if j % 2 = 0 then 29 else 5
  beta j := if j % 2 = 0 then 1 else 17
  gamma := [0, 8, 16, 24, 24, 16, 8, 0]
  SC0 := [0x917caf90, 0x6c1b10a2, 0x6f352943, 0xcf778243, 0x2ceb7472, 0x29e96ff2, 0x8a9ba428, 0x2eeb2642]
  get b i := getLE32 b i
  put := le32

def lsh512 : Params 64 where
  Ns := 28
  alpha j := if j % 2 = 0 then 23 else 7
  beta j := if j % 2 = 0 then 59 else 3
  gamma := [0, 16, 32, 48, 8, 24, 40, 56]
  SC0 := [0x97884283c938982a, 0xba1fca93533e2355, 0xc519a2e87aeb1c03, 0x9a0fc95462af17b1, 0xfc3dda8ab019a82b, 0x02825d079a895407, 0x79f2d0a7ee06a6f7, 0xd76d15eed9fdf5fe]
  get b i := getLE64 b i
  put := le64

variable {w : Nat}

/-- Step constants: each row from the one before. -/
def SC (P : Params w) (l : Nat) : Nat → BitVec w
  | 0 => P.SC0.getD l 0
  | j + 1 => SC P l j + (SC P l j).rotateLeft 8

/-- The permutations of word positions in message expansion and at the end of a step. -/
def tau : List Nat := [3, 2, 0, 1, 7, 4, 5, 6, 11, 10, 8, 9, 15, 12, 13, 14]
def sigma : List Nat := [6, 4, 5, 7, 12, 15, 14, 13, 2, 0, 1, 3, 8, 11, 10, 9]

/-- Two consecutive 16-word messages M_i, M_{i+1} of the expansion of a block. -/
def expand (P : Params w) (blk : Bytes) : Nat → List (BitVec w) × List (BitVec w)
  | 0 => ((List.range 16).map fun l => P.get blk (l * (w / 8)), (List.range 16).map fun l => P.get blk ((16 + l) * (w / 8)))
  | i + 1 =>
    let (a, b) := expand P blk i
    (b, (List.range 16).map fun l => b.getD l 0 + a.getD (tau.getD l 0) 0)
def M (P : Params w) (blk : Bytes) (i : Nat) : List (BitVec w) := (expand P blk i).1

def msgAdd (cv m : List (BitVec w)) : List (BitVec w) := List.zipWith (· ^^^ ·) cv m
/-- The two words of column l after Mix in step j. -/
def column (P : Params w) (j l : Nat) (x y : BitVec w) : BitVec w × BitVec w :=
  let x := (x + y).rotateLeft (P.alpha j)
  let x := x ^^^ SC P l j
  let y := (x + y).rotateLeft (P.beta j)
  (x + y, y.rotateLeft (P.gamma.getD l 0))
def mix (P : Params w) (j : Nat) (cv : List (BitVec w)) : List (BitVec w) :=
  ((List.range 8).map fun l => (column P j l (cv.getD l 0) (cv.getD (l + 8) 0)).1) ++ ((List.range 8).map fun l => (column P j l (cv.getD l 0) (cv.getD (l + 8) 0)).2)
def wordPerm (cv : List (BitVec w)) : List (BitVec w) := sigma.map fun i => cv.getD i 0

def step (P : Params w) (blk : Bytes) (cv : List (BitVec w)) (j : Nat) : List (BitVec w) := wordPerm (mix P j (msgAdd cv (M P blk j)))
def compress (P : Params w) (cv : List (BitVec w)) (blk : Bytes) : List (BitVec w) :=
  msgAdd ((List.range P.Ns).foldl (step P blk) cv) (M P blk P.Ns)

/-- The initial value for n bits: all steps, without message, from (w, n, 0, …). -/
def iv (P : Params w) (n : Nat) : List (BitVec w) :=
  (List.range P.Ns).foldl (fun cv j => wordPerm (mix P j cv)) (BitVec.ofNat w w :: BitVec.ofNat w n :: List.replicate 14 0)

/-- Bytes per block. -/
def B (w : Nat) : Nat := 32 * (w / 8)
def output (P : Params w) (cv : List (BitVec w)) : Bytes := ((List.range 8).map fun l => P.put (cv.getD l 0 ^^^ cv.getD (l + 8) 0)).flatten
/-- LSH-8w-n.  The padding is one bit and zeros. -/
def hash (P : Params w) (n : Nat) (m : Bytes) : Bytes :=
  (output P ((fullBlocks (B w) (mdPad (B w) 0x80 [] m)).foldl (compress P) (iv P n))).take (n / 8)

end Verif.Spec.LSH
