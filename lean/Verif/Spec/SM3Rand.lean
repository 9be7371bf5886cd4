import Verif.Spec.SM3
/-
The hash-based generator of GM/T 0105 with SM3 (also SP 800-90A Hash_DRBG): derivation function, state update, output.
-/
namespace Verif.Spec.SM3Rand

/-- SM3_df for 440 bits: the leftmost 55 bytes of SM3(1 ‖ 440 ‖ data) ‖ SM3(2 ‖ 440 ‖ data), the numbers as 32-bit big-endian words. -/
def df (data : Bytes) : Bytes :=
  (SM3.hash (be32 1#32 ++ be32 440#32 ++ data) ++ SM3.hash (be32 2#32 ++ be32 440#32 ++ data)).take 55

/-- A byte string as a big-endian number. -/
def num (b : Bytes) : Nat := b.foldl (fun n x => 256 * n + x.toNat) 0

/-- The last `k` bytes of a number. -/
def bytes : Nat → Nat → Bytes
  | 0, _ => []
  | k + 1, n => bytes k (n / 256) ++ [BitVec.ofNat 8 n]

/-- `(V + a) mod 2^440` -/
def add (V a : Bytes) : Bytes := bytes 55 ((num V + num a) % 2 ^ 440)

/-- The working state. -/
structure State where
  (V C : Bytes) (counter : U32)

/-- From a seed. -/
def seeded (V : Bytes) : State := ⟨V, df (0#8 :: V), 1#32⟩

/-- Instantiate. -/
def init (entropy nonce label : Bytes) : State := seeded (df (entropy ++ nonce ++ label))

/-- Reseed. -/
def reseed (s : State) (entropy addin : Bytes) : State := seeded (df (1#8 :: entropy ++ s.V ++ addin))

/-- The additional input. -/
def withInput (s : State) (addin : Bytes) : Bytes := if addin = [] then s.V else add s.V (SM3.hash (2#8 :: s.V ++ addin))

/-- The next working state. -/
def next (s : State) (addin : Bytes) : State :=
  let V := withInput s addin
  { s with V := add (add (add V (SM3.hash (3#8 :: V))) s.C) (be32 s.counter), counter := s.counter + 1#32 }

/-- The output block. -/
def block (s : State) (addin : Bytes) : Bytes := SM3.hash (withInput s addin)

/-- Due for reseeding: after 2^20 requests or when 600 seconds have passed. -/
def due (s : State) (elapsed : Nat) : Prop := s.counter.toNat > 2 ^ 20 ∨ elapsed > 600

end Verif.Spec.SM3Rand
