import Verif.Basic
/-
SipHash-c-d, from Aumasson and Bernstein, "SipHash: a fast short-input PRF" (2012), with the
128-bit output variant of the reference code.
-/
namespace Verif.Spec.SipHash

structure S where
  (v0 v1 v2 v3 : U64)

/-- Figure 2.1: the SipRound network. -/
def sipRound (v : S) : S :=
  let v0 := v.v0 + v.v1
  let v2 := v.v2 + v.v3
  let v1 := v.v1.rotateLeft 13
  let v3 := v.v3.rotateLeft 16
  let v1 := v1 ^^^ v0
  let v3 := v3 ^^^ v2
  let v0 := v0.rotateLeft 32
  let v2 := v2 + v1
  let v0 := v0 + v3
  let v1 := v1.rotateLeft 17
  let v3 := v3.rotateLeft 21
  let v1 := v1 ^^^ v2
  let v3 := v3 ^^^ v0
  let v2 := v2.rotateLeft 32
  ⟨v0, v1, v2, v3⟩

def rounds : Nat → S → S
  | 0, v => v
  | n+1, v => sipRound (rounds n v)

/-- Initialisation from the 16-byte key; `wide` is the 128-bit variant. -/
def init (wide : Bool) (key : Bytes) : S :=
  let k0 := getLE64 key 0
  let k1 := getLE64 key 8
  ⟨k0 ^^^ 0x736f6d6570736575#64,
   k1 ^^^ 0x646f72616e646f6d#64 ^^^ (if wide then 0xee#64 else 0#64),
   k0 ^^^ 0x6c7967656e657261#64, k1 ^^^ 0x7465646279746573#64⟩

/-- One message word. -/
def word (c : Nat) (v : S) (m : U64) : S :=
  let v := rounds c ⟨v.v0, v.v1, v.v2, v.v3 ^^^ m⟩
  ⟨v.v0 ^^^ m, v.v1, v.v2, v.v3⟩

/-- The message is completed with zeros and a final byte holding its length mod 256, so that it
consists of 8-byte little-endian words. -/
def pad (m : Bytes) : Bytes := m ++ zeros (7 - m.length % 8) ++ [BitVec.ofNat 8 m.length]

def fold (v : S) : U64 := v.v0 ^^^ v.v1 ^^^ v.v2 ^^^ v.v3

/-- Finalisation; 8 or 16 bytes. -/
def finish (d : Nat) (wide : Bool) (v : S) : Bytes :=
  let v := rounds d ⟨v.v0, v.v1, v.v2 ^^^ (if wide then 0xee#64 else 0xff#64), v.v3⟩
  let w := rounds d ⟨v.v0, v.v1 ^^^ 0xdd#64, v.v2, v.v3⟩
  if wide then le64 (fold v) ++ le64 (fold w) else le64 (fold v)

/-- SipHash-c-d from a given internal state. -/
def hashFrom (c d : Nat) (wide : Bool) (v : S) (m : Bytes) : Bytes :=
  finish d wide (((fullBlocks 8 (pad m)).map getLE64).foldl (word c) v)

def siphash (c d : Nat) (wide : Bool) (key m : Bytes) : Bytes := hashFrom c d wide (init wide key) m

end Verif.Spec.SipHash
