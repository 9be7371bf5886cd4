import Verif.Basic
/-
What a stream cipher does to the caller's memory.
-/
namespace Verif.Spec.StreamMem

/-- The memory after the `n` bytes at `src` were encrypted to `dst`, when `pos` bytes of the key stream `ks` were used before: byte `t` of the
destination is byte `t` of the source, as it was before the call, XOR byte `pos + t` of the key stream; all other bytes are as before. -/
def crypt (ks : Nat → Byte) (pos : Nat) (mem : Bytes) (dst src n : Nat) : Bytes :=
  (List.range mem.length).map fun i =>
    if dst ≤ i ∧ i < dst + n then mem.getD (src + (i - dst)) 0 ^^^ ks (pos + (i - dst)) else mem.getD i 0

/-- A sequence of calls `(dst, src, n)` on one stream: each goes on where the one before stopped. -/
def cryptAll (ks : Nat → Byte) (pos : Nat) (mem : Bytes) : List (Nat × Nat × Nat) → Bytes
  | [] => mem
  | c :: cs => cryptAll ks (pos + c.2.2) (crypt ks pos mem c.1 c.2.1 c.2.2) cs

/-- Encryption to the same place or apart, or to a place that begins before the source. -/
def Ordered (dst src n : Nat) : Prop := dst ≤ src ∨ src + n ≤ dst

end Verif.Spec.StreamMem
