import Verif.Basic
/-
CubeHash i+r/b+f-h (D. J. Bernstein, "CubeHash specification (2.B.1)", 2009).  The state is 32 words x[ijklm], the index read as five bits.
-/
namespace Verif.Spec.CubeHash

/-- One round: ten steps on the words x[ijklm]. -/
def round (x : Nat → U32) : Nat → U32 :=
  let add (x : Nat → U32) : Nat → U32 := fun n => if n < 16 then x n else x n + x (n - 16)      -- add x[0jklm] into x[1jklm]
  let rot (k : Nat) (x : Nat → U32) : Nat → U32 := fun n => if n < 16 then (x n).rotateLeft k else x n
  let swapLo (b : Nat) (x : Nat → U32) : Nat → U32 := fun n => if n < 16 then x (n ^^^ b) else x n -- swap in the half i = 0 along one bit
  let swapHi (b : Nat) (x : Nat → U32) : Nat → U32 := fun n => if n < 16 then x n else x (n ^^^ b)
  let xor (x : Nat → U32) : Nat → U32 := fun n => if n < 16 then x n ^^^ x (n + 16) else x n
  let x := add x
  let x := rot 7 x
  let x := swapLo 8 x        -- x[00klm] and x[01klm]
  let x := xor x
  let x := swapHi 2 x        -- x[1jk0m] and x[1jk1m]
  let x := add x
  let x := rot 11 x
  let x := swapLo 4 x        -- x[0j0lm] and x[0j1lm]
  let x := xor x
  swapHi 1 x                 -- x[1jkl0] and x[1jkl1]

/-- The state as a list of 32 words, one round. -/
def roundL (s : List U32) : List U32 := (List.range 32).map (round fun i => s.getD i 0)

def rounds (n : Nat) (s : List U32) : List U32 := (List.replicate n ()).foldl (fun s _ => roundL s) s

/-- The 128 bytes of the state (each word in little-endian order) and back. -/
def toBytes (s : List U32) : Bytes := s.flatMap le32
def ofBytes (b : Bytes) : List U32 := (List.range 32).map fun i => getLE32 b (4 * i)

structure Params where
  h : Nat   -- output bits
  b : Nat   -- block bytes
  r : Nat   -- rounds per block
  i : Nat   -- initialisation rounds
  f : Nat   -- finalisation rounds

def init (P : Params) : List U32 :=
  rounds P.i ([BitVec.ofNat 32 (P.h / 8), BitVec.ofNat 32 P.b, BitVec.ofNat 32 P.r] ++ List.replicate 29 0)

/-- XOR the block into the first b bytes of the state, then r rounds. -/
def absorb (P : Params) (s : List U32) (blk : Bytes) : List U32 :=
  rounds P.r (ofBytes (List.zipWith (· ^^^ ·) (toBytes s) (blk ++ zeros (128 - P.b))))

/-- A 1 bit, then the fewest 0 bits that fill a block. -/
def pad (P : Params) (m : Bytes) : Bytes := m ++ (0x80 :: zeros (P.b - 1 - m.length % P.b))

/-- XOR 1 into the last word, f rounds, the first h bits. -/
def hash (P : Params) (m : Bytes) : Bytes :=
  let s := (fullBlocks P.b (pad P m)).foldl (absorb P) (init P)
  let s := rounds P.f (s.set 31 (s.getD 31 0 ^^^ 1))
  (toBytes s).take (P.h / 8)

end Verif.Spec.CubeHash
