import Verif.Spec.GFBlock
import Verif.Spec.GMAC
/-
Counter mode, NIST SP 800-38A §6.5 and App. B.1 (standard incrementing function), and the GCM functions of
NIST SP 800-38D §6.5, §7.1 for byte strings.
-/
namespace Verif.Spec.CTR

/-- The standard incrementing function: the last `s` bytes as a big-endian number, plus one modulo 256^s. -/
def inc (s : Nat) (b : Bytes) : Bytes := b.take (b.length - s) ++ beBytes s (beNat (b.drop (b.length - s)) + 1)

/-- The counter block after `n` increments. -/
def counter (s : Nat) (iv : Bytes) : Nat → Bytes
  | 0 => iv
  | n + 1 => inc s (counter s iv n)

/-- Byte `i` of the key stream for blocks of `bs` bytes. -/
def stream (E : Bytes → Bytes) (bs s : Nat) (iv : Bytes) (i : Nat) : Byte := (E (counter s iv (i / bs))).getD (i % bs) 0

/-- The bytes `m` at position `pos` of the message, encrypted (or decrypted). -/
def crypt (E : Bytes → Bytes) (bs s : Nat) (iv : Bytes) (pos : Nat) (m : Bytes) : Bytes :=
  m.mapIdx fun i x => x ^^^ stream E bs s iv (pos + i)

/-- A call on an object of counter mode: encrypt `inp` into the buffer `out`; prepare `n` further blocks of key stream;
copy the next counter block into `b`. -/
inductive Call where
  | xor (out inp : Bytes)
  | refill (n : Int)
  | copyCTR (b : Bytes)

/-- The effect of a call when `pos` bytes have been encrypted and `g` counter blocks used: the new numbers, and what the
caller's buffer holds afterwards.  `none`: a panic. -/
def step (E : Bytes → Bytes) (bs s : Nat) (iv : Bytes) (st : Nat × Nat) : Call → Option ((Nat × Nat) × Bytes)
  | .xor out inp =>
    if inp.length ≤ out.length then
      some ((st.1 + inp.length, max st.2 ((st.1 + inp.length + bs - 1) / bs)), crypt E bs s iv st.1 inp ++ out.drop inp.length)
    else none
  | .refill n =>
    if st.1 ≠ st.2 * bs then some (st, []) else
    if 0 ≤ n ∧ n ≤ 8 then some ((st.1, st.2 + n.toNat), []) else none
  | .copyCTR b => if b.length = bs then some (st, counter s iv st.2) else none

/-- A history of calls: the buffers of each of them. -/
def run (E : Bytes → Bytes) (bs s : Nat) (iv : Bytes) : Nat × Nat → List Call → Option (List Bytes)
  | _, [] => some []
  | st, c :: cs => match step E bs s iv st c with
    | none => none
    | some (st, r) => (run E bs s iv st cs).map (r :: ·)

end Verif.Spec.CTR

namespace Verif.Spec.GCM

/-- GHASH of additional data and ciphertext with their lengths, masked: the full tag. -/
def tag (H : BitVec 128) (A C mask : Bytes) : Bytes :=
  List.zipWith (· ^^^ ·) (bytes (ghash H (pad16 A ++ pad16 C ++ bitLen A ++ bitLen C))) mask

/-- GCTR_K(ICB, X) of §6.5. -/
def gctr (E : Bytes → Bytes) (icb X : Bytes) : Bytes := CTR.crypt E 16 4 icb 0 X

/-- Algorithm 4, GCM-AE_K(IV, P, A) with 128-bit tags: the ciphertext and the tag. -/
def encrypt (E : Bytes → Bytes) (iv P A : Bytes) : Bytes × Bytes :=
  let H := block (E (zeros 16))
  let J := J0 H iv
  let C := gctr E (CTR.inc 4 J) P
  (C, gctr E J (bytes (ghash H (pad16 A ++ pad16 C ++ bitLen A ++ bitLen C))))

end Verif.Spec.GCM
