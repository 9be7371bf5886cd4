import Verif.Padding
/-
PANAMA (Daemen, Clapp, FSE 1998) as a hash function.  The state has 17 words, the buffer is a linear feedback shift register of 32 stages of 8 words.
-/
namespace Verif.Spec.Panama

def st (a : List U32) (i : Nat) : U32 := a.getD (i % 17) 0
def gamma (a : List U32) : List U32 := (List.range 17).map fun i => st a i ^^^ (st a (i + 1) ||| ~~~ st a (i + 2))
def pi (a : List U32) : List U32 := (List.range 17).map fun i => (st a (7 * i)).rotateLeft (i * (i + 1) / 2 % 32)
def theta (a : List U32) : List U32 := (List.range 17).map fun i => st a i ^^^ st a (i + 1) ^^^ st a (i + 4)
/-- l is the input (Push) or stage 4 (Pull), b stage 16. -/
def sigma (l b : Nat → U32) (a : List U32) : List U32 :=
  (List.range 17).map fun i => if i = 0 then st a 0 ^^^ 1 else if i ≤ 8 then st a i ^^^ l (i - 1) else st a i ^^^ b (i - 9)
def rho (l b : Nat → U32) (a : List U32) : List U32 := sigma l b (theta (pi (gamma a)))

/-- The buffer: stage j, word i. -/
abbrev Buf := Nat → Nat → U32
/-- The buffer update; q enters stage 0. -/
def lambda (q : Nat → U32) (b : Buf) : Buf := fun j i =>
  if j = 0 then b 31 i ^^^ q i else if j = 25 then b 24 i ^^^ b 31 ((i + 2) % 8) else b (j - 1) i

structure State where
  a : List U32
  b : Buf
def init : State := ⟨List.replicate 17 0, fun _ _ => 0⟩
def push (p : Nat → U32) (s : State) : State := ⟨rho p (s.b 16) s.a, lambda p s.b⟩
def pull (s : State) : State := ⟨rho (s.b 4) (s.b 16) s.a, lambda (fun i => st s.a (i + 1)) s.b⟩

/-- One bit 1, then zeros, to a multiple of 256 bits; 32 blank pulls; the output words are 9 … 16 of the state. -/
def hash (m : Bytes) : Bytes :=
  let s := (fullBlocks 32 (mdPad 32 0x01 [] m)).foldl (fun s b => push (fun i => getLE32 b (4 * i)) s) init
  let s := (List.range 32).foldl (fun s _ => pull s) s
  (List.range 8).flatMap fun i => le32 (st s.a (i + 9))

end Verif.Spec.Panama
