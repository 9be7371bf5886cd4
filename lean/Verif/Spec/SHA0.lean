import Verif.Padding
/-
SHA-0, written from FIPS PUB 180 (May 1993): SHA-1 without the rotation in the message schedule.
-/
namespace Verif.Spec.SHA0

/-- Section 5: functions `f_t`. -/
def f (t : Nat) (b c d : U32) : U32 :=
  if t < 20 then (b &&& c) ||| (~~~b &&& d)
  else if t < 40 then b ^^^ c ^^^ d
  else if t < 60 then (b &&& c) ||| (b &&& d) ||| (c &&& d)
  else b ^^^ c ^^^ d

/-- Section 6: constants `K_t`. -/
def K (t : Nat) : U32 :=
  if t < 20 then 0x5a827999#32 else if t < 40 then 0x6ed9eba1#32
  else if t < 60 then 0x8f1bbcdc#32 else 0xca62c1d6#32

/-- Section 7, steps a and b: `W_t` (no rotation: this is what distinguishes SHA-0 from SHA-1). -/
def W (blk : Bytes) (t : Nat) : U32 :=
  if t < 16 then getBE32 blk (4 * t)
  else W blk (t-3) ^^^ W blk (t-8) ^^^ W blk (t-14) ^^^ W blk (t-16)
termination_by t
decreasing_by all_goals omega

structure Reg where
  (A B C D E : U32)

/-- Section 7, step d. -/
def step (blk : Bytes) (r : Reg) (t : Nat) : Reg :=
  { A := r.A.rotateLeft 5 + f t r.B r.C r.D + r.E + W blk t + K t,
    B := r.A, C := r.B.rotateLeft 30, D := r.C, E := r.D }

def steps (blk : Bytes) (r : Reg) : Nat → Reg
  | 0 => r
  | n+1 => step blk (steps blk r n) n

/-- One block. -/
def compress (H : Reg) (blk : Bytes) : Reg :=
  let r := steps blk H 80
  ⟨H.A + r.A, H.B + r.B, H.C + r.C, H.D + r.D, H.E + r.E⟩

def H0 : Reg := ⟨0x67452301#32, 0xefcdab89#32, 0x98badcfe#32, 0x10325476#32, 0xc3d2e1f0#32⟩

/-- Section 4: padding. -/
def pad (m : Bytes) : Bytes := mdPad 64 0x80#8 (be64 (BitVec.ofNat 64 (8 * m.length))) m

/-- SHA-0. -/
def hash (m : Bytes) : Bytes :=
  let r := (fullBlocks 64 (pad m)).foldl compress H0
  be32 r.A ++ be32 r.B ++ be32 r.C ++ be32 r.D ++ be32 r.E

end Verif.Spec.SHA0
