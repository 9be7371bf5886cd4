import Verif.Spec.Keccak
/-
TurboSHAKE128 and KangarooTwelve (RFC 9861): KT128.
-/
namespace Verif.Spec.K12
open Verif.Spec.Keccak

/-- The state after a block of 168 bytes: its 21 words (little-endian) go into the first 21 lanes. -/
def absorb (A : State) (b : Bytes) : State :=
  p 12 ((List.range 25).map fun i => if i < 21 then A.getD i 0 ^^^ getLE64 b (8 * i) else A.getD i 0)
/-- The outer part: 168 bytes. -/
def outer (A : State) : Bytes := ((A.take 21).map le64).flatten
/-- M ‖ D ‖ 0…0 with the last bit set: a multiple of 168 bytes. -/
def pad (M : Bytes) (D : Byte) : Bytes :=
  let q := M ++ [D] ++ zeros (167 - M.length % 168)
  q.set (q.length - 1) (at8 q (q.length - 1) ^^^ 0x80#8)
/-- The state when the message has been absorbed. -/
def sponge (M : Bytes) (D : Byte) : State := (fullBlocks 168 (pad M D)).foldl absorb (List.replicate 25 0#64)
/-- Permute `j` times. -/
def iter : Nat → State → State
  | 0, A => A
  | j + 1, A => iter j (p 12 A)
/-- Byte `k` of the output stream. -/
def streamAt (A : State) (k : Nat) : Byte := at8 (outer (iter (k / 168) A)) (k % 168)
/-- TurboSHAKE128(M, D, L) -/
def turbo (M : Bytes) (D : Byte) (L : Nat) : Bytes := (List.range L).map (streamAt (sponge M D))

/-- The digits of `x` in base 256, most significant first, none for 0. -/
def digits (x : Nat) : Bytes := if x = 0 then [] else digits (x / 256) ++ [BitVec.ofNat 8 x]
/-- length_encode -/
def lengthEncode (x : Nat) : Bytes := digits x ++ [BitVec.ofNat 8 (digits x).length]

/-- Chunk `i` of `S`: 8192 bytes, the last one maybe fewer. -/
def chunk (S : Bytes) (i : Nat) : Bytes := (S.drop (8192 * i)).take 8192
/-- The number of chunks. -/
def nChunks (S : Bytes) : Nat := (S.length + 8191) / 8192
def final (S : Bytes) : Bytes :=
  chunk S 0 ++ [3, 0, 0, 0, 0, 0, 0, 0] ++ ((List.range' 1 (nChunks S - 1)).map fun i => turbo (chunk S i) 0x0b 32).flatten ++
    lengthEncode (nChunks S - 1) ++ [0xff, 0xff]
/-- KT128(M, C, L) -/
def kt (M C : Bytes) (L : Nat) : Bytes :=
  let S := M ++ C ++ lengthEncode C.length
  if S.length ≤ 8192 then turbo S 0x07 L else turbo (final S) 0x06 L

end Verif.Spec.K12
