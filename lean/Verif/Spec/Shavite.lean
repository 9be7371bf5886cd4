import Verif.Basic
import Verif.Spec.AES
/-
SHAvite-3 (Biham, Dunkelman; SHA-3 round 2 version, zero salt), written from the submission: AES rounds on bytes, the counter positions as a table.
-/
namespace Verif.Spec.Shavite
open Spec.AES (Col4 round add)

/-- A block of four 32-bit words, as four AES columns. -/
def aes (q : Col4) : Col4 := round q

def iv (bits : Nat) : List U32 :=
  match bits with
  | 224 => [0x6774f31c#32, 0x990ae210#32, 0xc87d4274#32, 0xc9546371#32, 0x62b2aea8#32, 0x4b5801d8#32, 0x1b702860#32, 0x842f3017#32]
  | 256 => [0x49bb3e47#32, 0x2674860d#32, 0xa8b392ac#32, 0x021ac4e6#32, 0x409283cf#32, 0x620e5d86#32, 0x6d929dcb#32, 0x96cc2a8b#32]
  | 384 => [0x83df1545#32, 0xf9aaec13#32, 0xf4803cb0#32, 0x11fe1f47#32, 0xda6cd269#32, 0x4f53fcd7#32, 0x950529a2#32, 0x97908147#32,
  0xb0a4d7af#32, 0x2b9132bf#32, 0x226e607d#32, 0x3c0f8d7c#32, 0x487b3f0f#32, 0x04363e22#32, 0x0155c99c#32, 0xec2e20d3#32]
  | _ => [0x72fccdd8#32, 0x79ca4727#32, 0x128a077b#32, 0x40d55aec#32, 0xd1901a06#32, 0x430ae307#32, 0xb29f5cd1#32, 0xdf07fbfc#32,
  0x8e45d73d#32, 0x681ab538#32, 0xbde86578#32, 0xdd577e47#32, 0xe275eade#32, 0x502d9fcd#32, 0xb9357178#32, 0x022a4b9a#32]

def g (l : List U32) (i : Nat) : U32 := l.getD i 0
def quad (l : List U32) (i : Nat) : Col4 := (g l i, g l (i + 1), g l (i + 2), g l (i + 3))
def toList (q : Col4) : List U32 := [q.1, q.2.1, q.2.2.1, q.2.2.2]

/-- Nonlinear step of the message expansion: four words from the `n` words (16 or 32) before; `tw u` is added to the words u … u+3. -/
def nonlin (n : Nat) (tw : Nat → Col4) (l : List U32) : List U32 :=
  let u := l.length
  l ++ toList (add (add (aes (g l (u - n + 1), g l (u - n + 2), g l (u - n + 3), g l (u - n))) (quad l (u - 4))) (tw u))
/-- Linear step: one word. -/
def linear (n k : Nat) (l : List U32) : List U32 := l ++ [g l (l.length - n) ^^^ g l (l.length - k)]

def iter {α} (f : α → α) (n : Nat) (a : α) : α := (List.range n).foldl (fun a _ => f a) a

def words (n : Nat) (blk : Bytes) : List U32 := (List.range n).map (fun i => getLE32 blk (4 * i))

/-- Where the 64-bit counter enters the 256-bit expansion. -/
def tw256 (c : Nat → U32) (u : Nat) : Col4 :=
  match u with
  | 16 => (c 0, ~~~(c 1), 0, 0)
  | 56 => (0, c 1, ~~~(c 0), 0)
  | 84 => (0, 0, c 1, ~~~(c 0))
  | 124 => (c 0, 0, 0, ~~~(c 1))
  | _ => (0, 0, 0, 0)
/-- Where the 128-bit counter enters the 512-bit expansion. -/
def tw512 (c : Nat → U32) (u : Nat) : Col4 :=
  match u with
  | 32 => (c 0, c 1, c 2, ~~~(c 3))
  | 164 => (c 3, c 2, c 1, ~~~(c 0))
  | 316 => (c 2, c 3, c 0, ~~~(c 1))
  | 440 => (c 1, c 0, c 3, ~~~(c 2))
  | _ => (0, 0, 0, 0)

def expand256 (blk : Bytes) (c : Nat → U32) : List U32 :=
  iter (fun l => iter (linear 16 3) 16 (iter (nonlin 16 (tw256 c)) 4 l)) 4 (words 16 blk)
def expand512 (blk : Bytes) (c : Nat → U32) : List U32 :=
  iter (nonlin 32 (tw512 c)) 8 (iter (fun l => iter (linear 32 7) 32 (iter (nonlin 32 (tw512 c)) 8 l)) 6 (words 32 blk))

/-- `n` AES rounds, each after adding four words of key. -/
def F (rk : List U32) (u n : Nat) (q : Col4) : Col4 := (List.range n).foldl (fun q i => aes (add q (quad rk (u + 4 * i)))) q

/-- 12 Feistel rounds, then the feed-forward. -/
def compress256 (h : List U32) (blk : Bytes) (c : Nat → U32) : List U32 :=
  let rk := expand256 blk c
  let r := (List.range 12).foldl (fun (s : Col4 × Col4) i => (s.2, add s.1 (F rk (12 * i) 3 s.2))) (quad h 0, quad h 4)
  toList (add (quad h 0) r.1) ++ toList (add (quad h 4) r.2)
/-- 14 rounds of the generalised Feistel structure, then the feed-forward. -/
def compress512 (h : List U32) (blk : Bytes) (c : Nat → U32) : List U32 :=
  let rk := expand512 blk c
  let r := (List.range 14).foldl (fun (s : Col4 × Col4 × Col4 × Col4) i =>
    (s.2.2.2, add s.1 (F rk (32 * i) 4 s.2.1), s.2.1, add s.2.2.1 (F rk (32 * i + 16) 4 s.2.2.2))) (quad h 0, quad h 4, quad h 8, quad h 12)
  toList (add (quad h 0) r.1) ++ toList (add (quad h 4) r.2.1) ++ toList (add (quad h 8) r.2.2.1) ++ toList (add (quad h 12) r.2.2.2)

/-- The words of the counter (number of message bits hashed so far). -/
def cnt (bits : Nat) (i : Nat) : U32 := BitVec.ofNat 32 (bits / 2 ^ (32 * i))
/-- The counter of a block that contains no message bits. -/
def cnt0 (_ : Nat) : U32 := 0

/-- All full message blocks, with their counters, from a chaining value. -/
def chain (B : Nat) (comp : List U32 → Bytes → (Nat → U32) → List U32) (h : List U32) (m : Bytes) : List U32 :=
  ((fullBlocks B m).foldl (fun (s : Nat × List U32) blk => (s.1 + 1, comp s.2 blk (cnt (8 * B * (s.1 + 1))))) (0, h)).2

/-- HAIFA padding: 0x80, zeros, the length in `lb` bytes, the digest length (bits) in 2 bytes.  `t` = B - lb - 2 bytes are in front of the lengths. -/
def finish (B lb bits : Nat) (lenEnc : Bytes) (comp : List U32 → Bytes → (Nat → U32) → List U32) (h : List U32) (rest : Bytes) (n : Nat) : List U32 :=
  let t := B - lb - 2
  let tail : Bytes := lenEnc ++ [BitVec.ofNat 8 bits, BitVec.ofNat 8 (bits / 256)]
  if rest.length = 0 then comp h ((0x80 :: zeros (t - 1)) ++ tail) cnt0
  else if rest.length < t then comp h (rest ++ (0x80 :: zeros (t - rest.length - 1)) ++ tail) (cnt (8 * n))
  else comp (comp h (rest ++ (0x80 :: zeros (B - rest.length - 1))) (cnt (8 * n))) (zeros t ++ tail) cnt0

/-- SHAvite-3-224 and SHAvite-3-256. -/
def hash256 (bits : Nat) (m : Bytes) : Bytes :=
  ((finish 64 8 bits (le64 (BitVec.ofNat 64 (8 * m.length))) compress256 (chain 64 compress256 (iv bits) m) (restBlock 64 m) m.length).take (bits / 32)).flatMap le32
/-- SHAvite-3-384 and SHAvite-3-512. -/
def hash512 (bits : Nat) (m : Bytes) : Bytes :=
  ((finish 128 16 bits (le64 (BitVec.ofNat 64 (8 * m.length)) ++ le64 (BitVec.ofNat 64 (8 * m.length / 2 ^ 64))) compress512
    (chain 128 compress512 (iv bits) m) (restBlock 128 m) m.length).take (bits / 32)).flatMap le32

end Verif.Spec.Shavite
