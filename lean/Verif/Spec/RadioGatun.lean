import Verif.Padding
/-
RadioGatún (Bertoni, Daemen, Peeters, Van Assche, 2006): a mill of 19 words, a belt of 13 stages of 3 words, words of 32 or 64 bits.
-/
namespace Verif.Spec.RadioGatun

structure Params (w : Nat) where
  /-- bytes of a word -/
  bytes : Nat
  get : Bytes → Nat → BitVec w
  put : BitVec w → Bytes
def rg32 : Params 32 := { bytes := 4, get := fun b i => getLE32 b i, put := le32 }
def rg64 : Params 64 := { bytes := 8, get := fun b i => getLE64 b i, put := le64 }

def st (a : List (BitVec w)) (i : Nat) : BitVec w := a.getD (i % 19) 0
def gamma (a : List (BitVec w)) : List (BitVec w) := (List.range 19).map fun i => st a i ^^^ (st a (i + 1) ||| ~~~ st a (i + 2))
def pi (a : List (BitVec w)) : List (BitVec w) := (List.range 19).map fun i => (st a (7 * i)).rotateRight (i * (i + 1) / 2)
def theta (a : List (BitVec w)) : List (BitVec w) := (List.range 19).map fun i => st a i ^^^ st a (i + 1) ^^^ st a (i + 4)
def iota (a : List (BitVec w)) : List (BitVec w) := (List.range 19).map fun i => if i = 0 then st a 0 ^^^ 1 else st a i
def mill (a : List (BitVec w)) : List (BitVec w) := iota (theta (pi (gamma a)))

/-- The belt: stage j, word i. -/
abbrev Belt (w : Nat) := Nat → Nat → BitVec w
structure State (w : Nat) where
  a : List (BitVec w)
  b : Belt w
def init : State w := ⟨List.replicate 19 0, fun _ _ => 0⟩

/-- The round function: rotation of the belt, feedforward from the mill to the belt, the mill function, feedforward from the belt to the mill. -/
def round (s : State w) : State w where
  a := (List.range 19).map fun i => if 13 ≤ i ∧ i < 16 then st (mill s.a) i ^^^ s.b 12 (i - 13) else st (mill s.a) i
  b := fun j i => s.b ((j + 12) % 13) i ^^^ (if 1 ≤ j ∧ (j - 1) % 3 = i then st s.a j else 0)

/-- The input mapping: three words into stage 0 of the belt and into words 16, 17, 18 of the mill. -/
def input (p : Nat → BitVec w) (s : State w) : State w where
  a := (List.range 19).map fun i => if 16 ≤ i then st s.a i ^^^ p (i - 16) else st s.a i
  b := fun j i => if j = 0 then s.b 0 i ^^^ p i else s.b j i

def inject (Q : Params w) (s : State w) (block : Bytes) : State w := round (input (fun i => Q.get block (i * Q.bytes)) s)

/-- Output: `n` times a round and the words 1 and 2 of the mill. -/
def output (Q : Params w) : Nat → State w → Bytes
  | 0, _ => []
  | n + 1, s => Q.put (st (round s).a 1) ++ Q.put (st (round s).a 2) ++ output Q n (round s)

/-- Blocks of three words, padded with a byte 01 and zeros; 16 blank rounds; 256 bits of output. -/
def hash (Q : Params w) (m : Bytes) : Bytes :=
  let s := (fullBlocks (3 * Q.bytes) (mdPad (3 * Q.bytes) 0x01 [] m)).foldl (inject Q) init
  let s := (List.range 16).foldl (fun s _ => round s) s
  output Q (16 / Q.bytes) s

end Verif.Spec.RadioGatun
