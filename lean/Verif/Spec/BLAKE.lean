import Verif.Padding
/-
BLAKE-224/256/384/512, written from Aumasson, Henzen, Meier and Phan, "SHA-3 proposal BLAKE"
(version 1.3, December 2010), Sections 2.1-2.4.  The word width is a parameter.
-/
namespace Verif.Spec.BLAKE

/-- Table 2.2: the ten permutations of {0..15}. -/
def sigma : List (List Nat) :=
  [[0, 1, 2, 3, 4, 5, 6, 7, 8, 9, 10, 11, 12, 13, 14, 15],
   [14, 10, 4, 8, 9, 15, 13, 6, 1, 12, 0, 2, 11, 7, 5, 3],
   [11, 8, 12, 0, 5, 2, 15, 13, 10, 14, 3, 6, 7, 1, 9, 4],
   [7, 9, 3, 1, 13, 12, 11, 14, 2, 6, 5, 10, 4, 0, 15, 8],
   [9, 0, 5, 7, 2, 4, 10, 15, 14, 1, 11, 12, 6, 8, 3, 13],
   [2, 12, 6, 10, 0, 11, 8, 3, 4, 13, 7, 5, 15, 14, 1, 9],
   [12, 5, 1, 15, 14, 13, 4, 10, 0, 7, 6, 3, 9, 2, 8, 11],
   [13, 11, 7, 14, 12, 1, 3, 9, 5, 0, 15, 4, 8, 6, 2, 10],
   [6, 15, 14, 9, 11, 3, 0, 8, 12, 2, 13, 7, 1, 4, 10, 5],
   [10, 2, 8, 4, 7, 6, 1, 5, 15, 11, 9, 14, 3, 12, 13, 0]]

/-- `σ_{r mod 10}(i)`. -/
def sig (r i : Nat) : Nat := (sigma.getD (r % 10) []).getD i 0

/-- What differs between the two families: rotation distances, rounds, constants. -/
structure Params (w : Nat) where
  (r1 r2 r3 r4 rounds : Nat)
  c : List (BitVec w)

variable {w : Nat}

/-- `G_i(a, b, c, d)` in round `r`. -/
def G (P : Params w) (m : Nat → BitVec w) (r i : Nat) (q : BitVec w × BitVec w × BitVec w × BitVec w) :
    BitVec w × BitVec w × BitVec w × BitVec w :=
  let (a, b, c, d) := q
  let a := a + b + (m (sig r (2*i)) ^^^ P.c.getD (sig r (2*i+1)) 0)
  let d := (d ^^^ a).rotateRight P.r1
  let c := c + d
  let b := (b ^^^ c).rotateRight P.r2
  let a := a + b + (m (sig r (2*i+1)) ^^^ P.c.getD (sig r (2*i)) 0)
  let d := (d ^^^ a).rotateRight P.r3
  let c := c + d
  let b := (b ^^^ c).rotateRight P.r4
  (a, b, c, d)

/-- The 4×4 state. -/
structure State (w : Nat) where
  (v0 v1 v2 v3 v4 v5 v6 v7 v8 v9 v10 v11 v12 v13 v14 v15 : BitVec w)

/-- A round: `G_0 .. G_3` on the columns, `G_4 .. G_7` on the diagonals. -/
def round (P : Params w) (m : Nat → BitVec w) (r : Nat) (v : State w) : State w :=
  let (v0, v4, v8, v12) := G P m r 0 (v.v0, v.v4, v.v8, v.v12)
  let (v1, v5, v9, v13) := G P m r 1 (v.v1, v.v5, v.v9, v.v13)
  let (v2, v6, v10, v14) := G P m r 2 (v.v2, v.v6, v.v10, v.v14)
  let (v3, v7, v11, v15) := G P m r 3 (v.v3, v.v7, v.v11, v.v15)
  let (v0, v5, v10, v15) := G P m r 4 (v0, v5, v10, v15)
  let (v1, v6, v11, v12) := G P m r 5 (v1, v6, v11, v12)
  let (v2, v7, v8, v13) := G P m r 6 (v2, v7, v8, v13)
  let (v3, v4, v9, v14) := G P m r 7 (v3, v4, v9, v14)
  ⟨v0, v1, v2, v3, v4, v5, v6, v7, v8, v9, v10, v11, v12, v13, v14, v15⟩

def rounds (P : Params w) (m : Nat → BitVec w) (v : State w) : Nat → State w
  | 0 => v
  | n+1 => round P m n (rounds P m v n)

/-- The compression function on chain value `h`, salt `s`, counter `(t0, t1)`, block `m`. -/
def compress (P : Params w) (s : List (BitVec w)) (h : List (BitVec w)) (t0 t1 : BitVec w)
    (m : Nat → BitVec w) : List (BitVec w) :=
  let H i := h.getD i 0
  let S i := s.getD i 0
  let C i := P.c.getD i 0
  let v := rounds P m ⟨H 0, H 1, H 2, H 3, H 4, H 5, H 6, H 7,
    S 0 ^^^ C 0, S 1 ^^^ C 1, S 2 ^^^ C 2, S 3 ^^^ C 3,
    t0 ^^^ C 4, t0 ^^^ C 5, t1 ^^^ C 6, t1 ^^^ C 7⟩ P.rounds
  [H 0 ^^^ S 0 ^^^ v.v0 ^^^ v.v8, H 1 ^^^ S 1 ^^^ v.v1 ^^^ v.v9,
   H 2 ^^^ S 2 ^^^ v.v2 ^^^ v.v10, H 3 ^^^ S 3 ^^^ v.v3 ^^^ v.v11,
   H 4 ^^^ S 0 ^^^ v.v4 ^^^ v.v12, H 5 ^^^ S 1 ^^^ v.v5 ^^^ v.v13,
   H 6 ^^^ S 2 ^^^ v.v6 ^^^ v.v14, H 7 ^^^ S 3 ^^^ v.v7 ^^^ v.v15]

/-- The bytes between the message and the length: a 1 bit, zeros, and the final bit `e`
(1 for the long variants, 0 for the truncated ones); `n` bytes. -/
def mid (e : Byte) (n : Nat) : Bytes :=
  if n = 1 then [0x80#8 ||| e] else 0x80#8 :: zeros (n - 2) ++ [e]

/-- Number of bytes in the middle so that `B - L` bytes are reached modulo `B`. -/
def midLen (B L len : Nat) : Nat :=
  if len % B < B - L then B - L - len % B else 2 * B - L - len % B

/-- Number of message bits hashed up to and including block `i`, or 0 if the block contains no
message bit (Section 2.1.3 / 2.2.3: the counter). -/
def counter (B len i : Nat) : Nat :=
  if B * i < len then 8 * min (B * (i + 1)) len else 0

/-! ### 32-bit words -/

def P32 : Params 32 where
  r1 := 16
  r2 := 12
  r3 := 8
  r4 := 7
  rounds := 14
  c := [0x243f6a88#32, 0x85a308d3#32, 0x13198a2e#32, 0x03707344#32, 0xa4093822#32, 0x299f31d0#32,
        0x082efa98#32, 0xec4e6c89#32, 0x452821e6#32, 0x38d01377#32, 0xbe5466cf#32, 0x34e90c6c#32,
        0xc0ac29b7#32, 0xc97c50dd#32, 0x3f84d5b5#32, 0xb5470917#32]

def iv256 : List U32 := [0x6a09e667#32, 0xbb67ae85#32, 0x3c6ef372#32, 0xa54ff53a#32,
  0x510e527f#32, 0x9b05688c#32, 0x1f83d9ab#32, 0x5be0cd19#32]
def iv224 : List U32 := [0xc1059ed8#32, 0x367cd507#32, 0x3070dd17#32, 0xf70e5939#32,
  0xffc00b31#32, 0x68581511#32, 0x64f98fa7#32, 0xbefa4fa4#32]

/-- The block with its index: compress with the counter of that block. -/
def step32 (s : List U32) (len : Nat) (h : List U32) (b : Bytes × Nat) : List U32 :=
  let t := BitVec.ofNat 64 (counter 64 len b.2)
  compress P32 s h (t.setWidth 32) ((t >>> 32).setWidth 32) (fun i => getBE32 b.1 (4 * i))

def pad32 (e : Byte) (m : Bytes) : Bytes :=
  m ++ mid e (midLen 64 8 m.length) ++ be64 (BitVec.ofNat 64 (8 * m.length))

/-- BLAKE with 32-bit words; `s` the salt as four words. -/
def hash32 (iv : List U32) (e : Byte) (s : List U32) (m : Bytes) : Bytes :=
  (((fullBlocks 64 (pad32 e m)).zipIdx.foldl (step32 s m.length) iv).map be32).flatten

def blake256 (s : List U32) (m : Bytes) : Bytes := hash32 iv256 1#8 s m
def blake224 (s : List U32) (m : Bytes) : Bytes := (hash32 iv224 0#8 s m).take 28

/-- The 16-byte salt as four words. -/
def salt32 (b : Bytes) : List U32 := (List.range 4).map fun i => getBE32 b (4 * i)

/-! ### 64-bit words -/

def P64 : Params 64 where
  r1 := 32
  r2 := 25
  r3 := 16
  r4 := 11
  rounds := 16
  c := [0x243f6a8885a308d3#64, 0x13198a2e03707344#64, 0xa4093822299f31d0#64, 0x082efa98ec4e6c89#64,
        0x452821e638d01377#64, 0xbe5466cf34e90c6c#64, 0xc0ac29b7c97c50dd#64, 0x3f84d5b5b5470917#64,
        0x9216d5d98979fb1b#64, 0xd1310ba698dfb5ac#64, 0x2ffd72dbd01adfb7#64, 0xb8e1afed6a267e96#64,
        0xba7c9045f12c7f99#64, 0x24a19947b3916cf7#64, 0x0801f2e2858efc16#64, 0x636920d871574e69#64]

def iv512 : List U64 := [0x6a09e667f3bcc908#64, 0xbb67ae8584caa73b#64, 0x3c6ef372fe94f82b#64,
  0xa54ff53a5f1d36f1#64, 0x510e527fade682d1#64, 0x9b05688c2b3e6c1f#64, 0x1f83d9abfb41bd6b#64,
  0x5be0cd19137e2179#64]
def iv384 : List U64 := [0xcbbb9d5dc1059ed8#64, 0x629a292a367cd507#64, 0x9159015a3070dd17#64,
  0x152fecd8f70e5939#64, 0x67332667ffc00b31#64, 0x8eb44a8768581511#64, 0xdb0c2e0d64f98fa7#64,
  0x47b5481dbefa4fa4#64]

/-- Low and high word of a 128-bit number. -/
def lo64 (n : Nat) : U64 := BitVec.ofNat 64 n
def hi64 (n : Nat) : U64 := BitVec.ofNat 64 (n / 2^64)

def step64 (s : List U64) (len : Nat) (h : List U64) (b : Bytes × Nat) : List U64 :=
  let t := counter 128 len b.2
  compress P64 s h (lo64 t) (hi64 t) (fun i => getBE64 b.1 (8 * i))

def pad64 (e : Byte) (m : Bytes) : Bytes :=
  m ++ mid e (midLen 128 16 m.length) ++ be64 (hi64 (8 * m.length)) ++ be64 (lo64 (8 * m.length))

def hash64 (iv : List U64) (e : Byte) (s : List U64) (m : Bytes) : Bytes :=
  (((fullBlocks 128 (pad64 e m)).zipIdx.foldl (step64 s m.length) iv).map be64).flatten

def blake512 (s : List U64) (m : Bytes) : Bytes := hash64 iv512 1#8 s m
def blake384 (s : List U64) (m : Bytes) : Bytes := (hash64 iv384 0#8 s m).take 48

/-- The 32-byte salt as four words. -/
def salt64 (b : Bytes) : List U64 := (List.range 4).map fun i => getBE64 b (8 * i)

end Verif.Spec.BLAKE
