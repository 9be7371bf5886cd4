import Verif.Basic
/-
bash-f and bash-hash of STB 34.101.77 (also in ePrint 2016/587), written from the standard: rotations and round constants are generated by their rules.
-/
namespace Verif.Spec.Bash

/-- The S-box of bash-f on one triple of words. -/
def sbox (m1 n1 m2 n2 : Nat) (w : U64 × U64 × U64) : U64 × U64 × U64 :=
  let u0 := w.1 ^^^ w.2.1 ^^^ w.2.2
  let u1 := w.2.1 ^^^ w.1.rotateLeft m1 ^^^ u0.rotateLeft n1
  let u2 := w.2.2 ^^^ w.2.2.rotateLeft m2 ^^^ (w.2.1 ^^^ u0.rotateLeft n1).rotateLeft n2
  (u0 ^^^ (~~~u2 ||| u1), u1 ^^^ (u0 ||| u2), u2 ^^^ (u0 &&& u1))

/-- Rotation numbers of column j: 8, 53, 14, 1, multiplied by 7 from column to column. -/
def rot (j k : Nat) : Nat := (([8, 53, 14, 1].getD k 0) * 7 ^ j) % 64

/-- The round constants: an LFSR. -/
def rc : Nat → U64
  | 0 => 0x3bf5080ac8ba94b1
  | n + 1 => if (rc n).getLsbD 0 then (rc n >>> 1) ^^^ 0xdc2be1997fe0d8ae else rc n >>> 1

/-- The permutation of the words. -/
def perm : List Nat := [15, 10, 9, 12, 11, 14, 13, 8, 17, 16, 19, 18, 21, 20, 23, 22, 6, 3, 0, 5, 2, 7, 4, 1]

def col (S : Nat → U64) (j : Nat) : U64 × U64 × U64 := sbox (rot j 0) (rot j 1) (rot j 2) (rot j 3) (S j, S (8 + j), S (16 + j))

/-- All columns substituted. -/
def sub (S : Nat → U64) (i : Nat) : U64 := if i < 8 then (col S i).1 else if i < 16 then (col S (i - 8)).2.1 else (col S (i - 16)).2.2

def round (r : Nat) (S : List U64) : List U64 :=
  let P := (List.range 24).map (fun i => sub (fun i => S.getD i 0) (perm.getD i 0))
  P.set 23 (P.getD 23 0 ^^^ rc r)

/-- bash-f on 192 bytes. -/
def f (b : Bytes) : Bytes :=
  ((List.range 24).foldl (fun S r => round r S) ((List.range 24).map (fun i => getLE64 b (8 * i)))).flatMap le64

/-- Message, a byte 01000000 (0x40), zeros. -/
def pad (rate : Nat) (m : Bytes) : Bytes := m ++ (0x40 :: zeros ((rate - (m.length + 1) % rate) % rate))

/-- The initial state: `l/4` = the digest length in bytes, in the last word. -/
def init (hs : Nat) : Bytes := zeros 184 ++ le64 (BitVec.ofNat 64 hs)

/-- The standard's step: a block replaces the first `rate` bytes of the state. -/
def absorbReplace (rate : Nat) (s blk : Bytes) : Bytes := f (blk ++ s.drop rate)
/-- The usual sponge step: a block is XORed to the first `rate` bytes. -/
def absorbXor (s blk : Bytes) : Bytes := f (List.zipWith (· ^^^ ·) s (blk ++ zeros (192 - blk.length)))

/-- bash-hash with digests of `hs` bytes. -/
def hash (hs : Nat) (m : Bytes) : Bytes :=
  let rate := 192 - 2 * hs
  ((fullBlocks rate (pad rate m)).foldl (absorbReplace rate) (init hs)).take hs
/-- The XOR sponge over bash-f. -/
def hashXor (hs : Nat) (m : Bytes) : Bytes :=
  let rate := 192 - 2 * hs
  ((fullBlocks rate (pad rate m)).foldl absorbXor (init hs)).take hs

end Verif.Spec.Bash
