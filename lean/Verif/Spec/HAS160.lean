import Verif.Padding
/-
HAS-160, written from TTAS.KO-12.0011/R1 (Korean hash function standard).
-/
namespace Verif.Spec.HAS160

structure Reg where
  (A B C D E : U32)

/-- The extra words `X16..X19` of round `r` are sums of these message words. -/
def extra (r k : Nat) : List Nat :=
  match r, k with
  | 0, 16 => [0, 1, 2, 3]    | 0, 17 => [4, 5, 6, 7]    | 0, 18 => [8, 9, 10, 11] | 0, _ => [12, 13, 14, 15]
  | 1, 16 => [3, 6, 9, 12]   | 1, 17 => [2, 5, 8, 15]   | 1, 18 => [1, 4, 11, 14] | 1, _ => [0, 7, 10, 13]
  | 2, 16 => [5, 7, 12, 14]  | 2, 17 => [0, 2, 9, 11]   | 2, 18 => [4, 6, 13, 15] | 2, _ => [1, 3, 8, 10]
  | _, 16 => [2, 7, 8, 13]   | _, 17 => [3, 4, 9, 14]   | _, 18 => [0, 5, 10, 15] | _, _ => [1, 6, 11, 12]

/-- Message word `k` (0..19) of round `r`; words are little-endian. -/
def X (blk : Bytes) (r k : Nat) : U32 :=
  if k < 16 then getLE32 blk (4 * k)
  else ((extra r k).map fun i => getLE32 blk (4 * i)).foldl (· ^^^ ·) 0

/-- Order of the message words in round `r`. -/
def order (r : Nat) : List Nat :=
  match r with
  | 0 => [18, 0, 1, 2, 3, 19, 4, 5, 6, 7, 16, 8, 9, 10, 11, 17, 12, 13, 14, 15]
  | 1 => [18, 3, 6, 9, 12, 19, 15, 2, 5, 8, 16, 11, 14, 1, 4, 17, 7, 10, 13, 0]
  | 2 => [18, 12, 5, 14, 7, 19, 0, 9, 2, 11, 16, 4, 13, 6, 15, 17, 8, 1, 10, 3]
  | _ => [18, 7, 2, 13, 8, 19, 3, 14, 9, 4, 16, 15, 10, 5, 0, 17, 11, 6, 1, 12]

/-- First rotation amount of step `i` of a round. -/
def rot1 : List Nat := [5, 11, 7, 15, 6, 13, 8, 14, 7, 12, 9, 11, 8, 15, 6, 12, 9, 14, 5, 13]
/-- Second rotation amount of round `r`. -/
def rot2 (r : Nat) : Nat := match r with | 0 => 10 | 1 => 17 | 2 => 25 | _ => 30
/-- Constant of round `r`. -/
def K (r : Nat) : U32 :=
  match r with | 0 => 0 | 1 => 0x5a827999#32 | 2 => 0x6ed9eba1#32 | _ => 0x8f1bbcdc#32
/-- Boolean function of round `r`. -/
def f (r : Nat) (x y z : U32) : U32 :=
  match r with
  | 0 => (x &&& y) ||| (~~~x &&& z)
  | 1 => x ^^^ y ^^^ z
  | 2 => y ^^^ (x ||| ~~~z)
  | _ => x ^^^ y ^^^ z

/-- Step `i` (0..19) of round `r` (0..3). -/
def step (blk : Bytes) (r : Nat) (v : Reg) (i : Nat) : Reg :=
  { A := v.A.rotateLeft (rot1.getD i 0) + f r v.B v.C v.D + v.E + X blk r ((order r).getD i 0) + K r,
    B := v.A, C := v.B.rotateLeft (rot2 r), D := v.C, E := v.D }

/-- The first `n` steps of round `r`. -/
def steps (blk : Bytes) (r : Nat) (v : Reg) : Nat → Reg
  | 0 => v
  | n+1 => step blk r (steps blk r v n) n

def compress (H : Reg) (blk : Bytes) : Reg :=
  let v := steps blk 0 H 20
  let v := steps blk 1 v 20
  let v := steps blk 2 v 20
  let v := steps blk 3 v 20
  ⟨H.A + v.A, H.B + v.B, H.C + v.C, H.D + v.D, H.E + v.E⟩

def H0 : Reg := ⟨0x67452301#32, 0xefcdab89#32, 0x98badcfe#32, 0x10325476#32, 0xc3d2e1f0#32⟩

/-- Padding: a one bit, zero bits, the 64-bit length, little-endian. -/
def pad (m : Bytes) : Bytes := mdPad 64 0x80#8 (le64 (BitVec.ofNat 64 (8 * m.length))) m

def hash (m : Bytes) : Bytes :=
  let r := (fullBlocks 64 (pad m)).foldl compress H0
  le32 r.A ++ le32 r.B ++ le32 r.C ++ le32 r.D ++ le32 r.E

end Verif.Spec.HAS160
