import Verif.Padding
/-
SM3, written from GB/T 32905-2016 (also ISO/IEC 10118-3:2018, GM/T 0004-2012),
independently of the Go code.
-/
namespace Verif.Spec.SM3

/-- Initial value, clause 4.1. -/
def IV : List U32 := [0x7380166f#32, 0x4914b2b9#32, 0x172442d7#32, 0xda8a0600#32,
  0xa96f30bc#32, 0x163138aa#32, 0xe38dee4d#32, 0xb0fb0e4e#32]

/-- Constants, clause 4.2. -/
def T (j : Nat) : U32 := if j < 16 then 0x79cc4519#32 else 0x7a879d8a#32

/-- Boolean functions, clause 4.3. -/
def FF (j : Nat) (x y z : U32) : U32 :=
  if j < 16 then x ^^^ y ^^^ z else (x &&& y) ||| (x &&& z) ||| (y &&& z)
def GG (j : Nat) (x y z : U32) : U32 :=
  if j < 16 then x ^^^ y ^^^ z else (x &&& y) ||| (~~~ x &&& z)

/-- Permutations, clause 4.4. -/
def P0 (x : U32) : U32 := x ^^^ x.rotateLeft 9 ^^^ x.rotateLeft 17
def P1 (x : U32) : U32 := x ^^^ x.rotateLeft 15 ^^^ x.rotateLeft 23

/-- Message expansion, clause 5.3.2: `W_0 .. W_67`. -/
def W (blk : Bytes) (j : Nat) : U32 :=
  if j < 16 then getBE32 blk (4 * j)
  else P1 (W blk (j-16) ^^^ W blk (j-9) ^^^ (W blk (j-3)).rotateLeft 15)
    ^^^ (W blk (j-13)).rotateLeft 7 ^^^ W blk (j-6)
termination_by j
decreasing_by all_goals omega

/-- `W'_0 .. W'_63`. -/
def W' (blk : Bytes) (j : Nat) : U32 := W blk j ^^^ W blk (j+4)

/-- The eight registers. -/
structure Reg where
  (A B C D E F G H : U32)
  deriving DecidableEq

/-- One step of the compression function, clause 5.3.3. -/
def step (blk : Bytes) (r : Reg) (j : Nat) : Reg :=
  let SS1 := (r.A.rotateLeft 12 + r.E + (T j).rotateLeft (j % 32)).rotateLeft 7
  let SS2 := SS1 ^^^ r.A.rotateLeft 12
  let TT1 := FF j r.A r.B r.C + r.D + SS2 + W' blk j
  let TT2 := GG j r.E r.F r.G + r.H + SS1 + W blk j
  { A := TT1, B := r.A, C := r.B.rotateLeft 9, D := r.C,
    E := P0 TT2, F := r.E, G := r.F.rotateLeft 19, H := r.G }

/-- The registers after the first `n` steps. -/
def steps (blk : Bytes) (V : Reg) : Nat → Reg
  | 0 => V
  | n+1 => step blk (steps blk V n) n

def Reg.ofList (v : List U32) : Reg :=
  ⟨v.getD 0 0, v.getD 1 0, v.getD 2 0, v.getD 3 0, v.getD 4 0, v.getD 5 0, v.getD 6 0, v.getD 7 0⟩
def Reg.toList (r : Reg) : List U32 := [r.A, r.B, r.C, r.D, r.E, r.F, r.G, r.H]

/-- Compression `V_{i+1} = CF(V_i, B_i)`. -/
def CF (V : List U32) (blk : Bytes) : List U32 :=
  List.zipWith (· ^^^ ·) (steps blk (Reg.ofList V) 64).toList (Reg.ofList V).toList

/-- Padding, clause 5.2: a one bit, zero bits, the bit length as 64 bits big-endian. -/
def pad (m : Bytes) : Bytes := mdPad 64 0x80#8 (be64 (BitVec.ofNat 64 (8 * m.length))) m

/-- SM3. -/
def hash (m : Bytes) : Bytes := (((fullBlocks 64 (pad m)).foldl CF IV).map be32).flatten

end Verif.Spec.SM3
