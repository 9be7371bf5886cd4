import Verif.Basic
/-
MD6 (R. Rivest et al., "The MD6 hash function", 2008): the compression function, the control words, the digest of a message that
fits one block; and the chain of compressions over a longer message as package md6 forms it (which is not the MD6 mode of operation).
-/
namespace Verif.Spec.MD6

/-- The round constants: S₀, and S_{j+1} = (S_j ⋘ 1) ⊕ (S_j ∧ S*). -/
def S : Nat → U64
  | 0 => 0x0123456789ABCDEF#64
  | j + 1 => (S j).rotateLeft 1 ^^^ (S j &&& 0x7311C2812425CFA0#64)
/-- The shift amounts. -/
def right : List Nat := [10, 5, 13, 10, 11, 12, 2, 7, 14, 15, 7, 13, 11, 7, 6, 12]
def left : List Nat := [11, 24, 9, 16, 15, 9, 27, 15, 6, 2, 29, 8, 15, 5, 31, 9]
/-- One step: the next word of the sequence `A` of 89 + i words. -/
def next (A : List U64) (i : Nat) : U64 :=
  let a := fun k => A.getD (A.length - k) 0
  let x := S (i / 16) ^^^ a 89 ^^^ a 17 ^^^ (a 18 &&& a 21) ^^^ (a 31 &&& a 67)
  let x := x ^^^ (x >>> right.getD (i % 16) 0)
  x ^^^ (x <<< left.getD (i % 16) 0)
/-- The compression function with `r` rounds: 89 words to 16. -/
def f (r : Nat) (N : List U64) : List U64 :=
  ((List.range (16 * r)).foldl (fun A i => A ++ [next A i]) N).drop (16 * r + 89 - 16)

/-- The constant Q: the fractional part of √6. -/
def Q : List U64 := [0x7311C2812425CFA0#64, 0x6432286434AAC8E7#64, 0xB60450E9EF68B7C1#64, 0xE8FB23908D9F06F1#64, 0xDD2E76CBA691E5BF#64,
  0x0CD0D63B2C30BC41#64, 0x1F8CCF6823058F8A#64, 0x54E5ED5B88E3775D#64, 0x4AD12AAE0A6D6031#64, 0x3E7F16BB88222E0D#64, 0x8AF8671D3FB50C2C#64,
  0x995AD1178BD25C31#64, 0xC878C1DD04C4B633#64, 0x3B72066C7A1552AC#64, 0x0D6F3522631EFFCB#64]

/-- The parameters: digest size in bits, key, rounds, levels. -/
structure Par where
  d : Nat
  key : Bytes
  r : Nat
  L : Int
/-- The 64-bit words of a byte string whose length is a multiple of 8. -/
def words (b : Bytes) : List U64 := (List.range (b.length / 8)).map fun i => getBE64 b (8 * i)
/-- The key, zero padded to 8 words. -/
def K (p : Par) : List U64 := words (p.key ++ zeros (64 - p.key.length))
/-- U: level (8 bits), index (56 bits). -/
def U (ell index : Nat) : U64 := BitVec.ofNat 8 ell ++ BitVec.ofNat 56 index
/-- V: 4 zero bits, r (12), L (8), z (4), p (16), keylen (8), d (12). -/
def V (q : Par) (z p : Nat) : U64 :=
  0#4 ++ BitVec.ofNat 12 q.r ++ BitVec.ofInt 8 q.L ++ BitVec.ofNat 4 z ++ BitVec.ofNat 16 p ++ BitVec.ofNat 8 q.key.length ++ BitVec.ofNat 12 q.d

/-- The input of the compression function: Q, K, U, V and 64 words of data. -/
def node (q : Par) (ell z p : Nat) (data : List U64) : List U64 := f q.r (Q ++ K q ++ [U ell 0, V q z p] ++ data)

/-- The last `d` bits of the 16 words (`d` bits in ⌈d/8⌉ bytes, the low bits of the last byte cleared as package md6 does). -/
def crop (d : Nat) (C : List U64) : Bytes :=
  let h := (C.map be64).flatten
  let h := h.drop (h.length - (d + 7) / 8)
  if d % 8 = 0 then h else h.set (h.length - 1) (at8 h (h.length - 1) &&& BitVec.ofNat 8 (0xFF <<< (8 - d % 8)))

/-- The MD6 digest of a message of fewer than 512 bytes, in tree mode: one node, level 1, z = 1, the data padded with p zero bits. -/
def short (q : Par) (m : Bytes) : Bytes :=
  crop q.d (node q 1 1 (8 * (512 - m.length)) (words (m ++ zeros (512 - m.length))))

/-! ### What package md6 computes for any message

One chain of nodes, one per 512-byte block, each fed the 16 words of the previous node and then the words of the block, cut to 64 words in
all. -/

/-- 64 words. -/
def cut64 (l : List U64) : List U64 := (l ++ List.replicate 64 0#64).take 64
def chainNode (q : Par) (ell z p : Nat) (C : List U64) (M : Bytes) : List U64 := node q ell z p (cut64 (C ++ words M))
/-- A full block; beyond level L the block is filled up with zeros to 768 bytes, and z = 0. -/
def chainStep (q : Par) (st : List U64 × Nat) (M : Bytes) : List U64 × Nat :=
  (if ((st.2 + 1 : Nat) : Int) > q.L then chainNode q (st.2 + 1) 0 0 st.1 (M ++ zeros 256) else chainNode q (st.2 + 1) 1 0 st.1 M, st.2 + 1)
/-- The number of zero bytes up to the next positive multiple of b. -/
def fill (b n : Nat) : Nat := if n = 0 then b else (b - n % b) % b
/-- The last, partial block `R` of a message of `n` bytes. -/
def chainLast (q : Par) (st : List U64 × Nat) (n : Nat) (R : Bytes) : List U64 :=
  if ((st.2 + 1 : Nat) : Int) > q.L then chainNode q (st.2 + 1) 1 (8 * fill 384 R.length) st.1 (R ++ zeros (fill 384 R.length))
  else chainNode q (st.2 + 1) (if 512 < n then 0 else 1) (8 * fill 512 R.length) st.1 (R ++ zeros (fill 512 R.length))
def chain (q : Par) (m : Bytes) : Bytes :=
  crop q.d (chainLast q ((fullBlocks 512 m).foldl (chainStep q) ([], 0)) m.length (restBlock 512 m))

end Verif.Spec.MD6
