import Verif.Padding
/-
Shabal (Bresson, Canteaut, Chevallier-Mames, Clavier, Fuhr, Gouget, Icart, Misarsky, Naya-Plasencia, Paillier, Pornin, Reinhard, Thuillet, Videau, 2008).
A has 12 words, B and C have 16; the message block M has 16 words; W is the block counter.
-/
namespace Verif.Spec.Shabal

structure State where
  A : List U32
  B : List U32
  C : List U32

def a (s : State) (i : Nat) : U32 := s.A.getD (i % 12) 0
def b (s : State) (i : Nat) : U32 := s.B.getD (i % 16) 0
def c (s : State) (i : Nat) : U32 := s.C.getD (i % 16) 0

/-- One step of the permutation (k = i + 16 j), with U(x) = 3x and V(x) = 5x. -/
def step (M : Nat → U32) (s : State) (k : Nat) : State :=
  let A' := ((a s k ^^^ (a s (k + 11)).rotateLeft 15 * 5 ^^^ c s (8 + 48 - k)) * 3) ^^^ b s (k + 13) ^^^ (b s (k + 9) &&& ~~~ b s (k + 6)) ^^^ M (k % 16)
  { s with A := s.A.set (k % 12) A', B := s.B.set (k % 16) ((b s k).rotateLeft 1 ^^^ ~~~ A') }

/-- The keyed permutation: B <<< 17, 48 steps, and the addition of C to A (36 additions: A[j mod 12] += C[j+3 mod 16]). -/
def perm (M : Nat → U32) (s : State) : State :=
  let s := { s with B := (List.range 16).map fun i => (b s i).rotateLeft 17 }
  let s := (List.range 48).foldl (step M) s
  { s with A := (List.range 12).map fun i => a s i + c s (i + 3) + c s (i + 12 + 3) + c s (i + 24 + 3) }

/-- Message insertion, counter insertion, permutation, subtraction of the message, exchange of B and C. -/
def block (W : U64) (M : Nat → U32) (s : State) : State :=
  let s := { s with B := (List.range 16).map fun i => b s i + M i }
  let s := { s with A := (List.range 12).map fun i => if i = 0 then a s 0 ^^^ W.setWidth 32 else if i = 1 then a s 1 ^^^ (W >>> 32).setWidth 32 else a s i }
  let s := perm M s
  { A := s.A, B := (List.range 16).map fun i => c s i - M i, C := s.B }

def zero : State := ⟨List.replicate 12 0, List.replicate 16 0, List.replicate 16 0⟩
/-- The initial state for an output of n bits: the two blocks n … n+15, n+16 … n+31 with the counters -1 and 0. -/
def iv (n : Nat) : State := block 0 (fun i => BitVec.ofNat 32 (n + 16 + i)) (block (-1) (fun i => BitVec.ofNat 32 (n + i)) zero)

def words (B : Bytes) : Nat → U32 := fun i => getLE32 B (4 * i)

/-- Blocks from number 1 on; the last one, padded with a bit 1 and zeros, is followed by three more calls with the same block and counter;
the output is the end of C. -/
def hash (n : Nat) (m : Bytes) : Bytes :=
  let blocks := fullBlocks 64 (mdPad 64 0x80 [] m)
  let s := blocks.zipIdx.foldl (fun s (B, i) => block (BitVec.ofNat 64 (i + 1)) (words B) s) (iv n)
  let last := words (blocks.getLastD [])
  let s := (List.range 3).foldl (fun s _ => block (BitVec.ofNat 64 blocks.length) last s) s
  (s.C.drop (16 - n / 32)).flatMap le32

end Verif.Spec.Shabal
