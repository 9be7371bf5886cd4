import Verif.Basic
/-
HAVAL (Y. Zheng, J. Pieprzyk, J. Seberry, "HAVAL - a one-way hashing algorithm with variable length of output", AUSCRYPT '92).
The eight words T7 … T0 form a shift register; a step computes a new T0.
-/
namespace Verif.Spec.Haval

/-- The Boolean functions f1 … f5 as polynomials over GF(2) (product is AND, sum is XOR). -/
def f (j : Nat) (x6 x5 x4 x3 x2 x1 x0 : U32) : U32 :=
  match j with
  | 1 => x1 &&& x4 ^^^ x2 &&& x5 ^^^ x3 &&& x6 ^^^ x0 &&& x1 ^^^ x0
  | 2 => x1 &&& x2 &&& x3 ^^^ x2 &&& x4 &&& x5 ^^^ x1 &&& x2 ^^^ x1 &&& x4 ^^^ x2 &&& x6 ^^^ x3 &&& x5 ^^^ x4 &&& x5 ^^^ x0 &&& x2 ^^^ x0
  | 3 => x1 &&& x2 &&& x3 ^^^ x1 &&& x4 ^^^ x2 &&& x5 ^^^ x3 &&& x6 ^^^ x0 &&& x3 ^^^ x0
  | 4 => x1 &&& x2 &&& x3 ^^^ x2 &&& x4 &&& x5 ^^^ x3 &&& x4 &&& x6 ^^^ x1 &&& x4 ^^^ x2 &&& x6 ^^^ x3 &&& x4 ^^^ x3 &&& x5 ^^^ x3 &&& x6 ^^^ x4 &&& x5 ^^^ x4 &&& x6 ^^^
      x0 &&& x4 ^^^ x0
  | _ => x1 &&& x4 ^^^ x2 &&& x5 ^^^ x3 &&& x6 ^^^ x0 &&& x1 &&& x2 &&& x3 ^^^ x0 &&& x5 ^^^ x0

/-- φ_{p,j}: which register words the arguments x6 … x0 of f_j are, for p passes. -/
def phi (p j : Nat) : List Nat :=
  match p, j with
  | 3, 1 => [1, 0, 3, 5, 6, 2, 4]
  | 3, 2 => [4, 2, 1, 0, 5, 3, 6]
  | 3, 3 => [6, 1, 2, 3, 4, 5, 0]
  | 4, 1 => [2, 6, 1, 4, 5, 3, 0]
  | 4, 2 => [3, 5, 2, 0, 1, 6, 4]
  | 4, 3 => [1, 4, 3, 6, 0, 2, 5]
  | 4, 4 => [6, 4, 0, 5, 2, 1, 3]
  | 5, 1 => [3, 4, 1, 0, 5, 2, 6]
  | 5, 2 => [6, 2, 1, 0, 3, 4, 5]
  | 5, 3 => [2, 6, 0, 4, 3, 1, 5]
  | 5, 4 => [1, 5, 3, 2, 0, 4, 6]
  | 5, 5 => [2, 5, 0, 6, 4, 3, 1]
  | _, _ => []

/-- The order in which pass j uses the words of the block. -/
def ord (j : Nat) : List Nat :=
  match j with
  | 1 => List.range 32
  | 2 => [5, 14, 26, 18, 11, 28, 7, 16, 0, 23, 20, 22, 1, 10, 4, 8,
      30, 3, 21, 9, 17, 24, 29, 6, 19, 12, 15, 13, 2, 25, 31, 27]
  | 3 => [19, 9, 4, 20, 28, 17, 8, 22, 29, 14, 25, 12, 24, 30, 16, 26,
      31, 15, 7, 3, 1, 0, 18, 27, 13, 6, 21, 10, 23, 11, 5, 2]
  | 4 => [24, 4, 0, 14, 2, 7, 28, 23, 26, 6, 30, 20, 18, 25, 19, 3,
      22, 11, 31, 21, 8, 27, 12, 9, 1, 29, 5, 15, 17, 10, 16, 13]
  | _ => [27, 3, 21, 26, 17, 11, 20, 29, 19, 0, 12, 7, 13, 8, 31, 10,
      5, 9, 14, 30, 18, 6, 28, 24, 2, 23, 16, 22, 4, 1, 25, 15]

/-- Additive constants of pass j (none in pass 1). -/
def K (j : Nat) : List U32 :=
  match j with
  | 1 => List.replicate 32 0
  | 2 => [0x452821e6, 0x38d01377, 0xbe5466cf, 0x34e90c6c, 0xc0ac29b7, 0xc97c50dd, 0x3f84d5b5, 0xb5470917,
      0x9216d5d9, 0x8979fb1b, 0xd1310ba6, 0x98dfb5ac, 0x2ffd72db, 0xd01adfb7, 0xb8e1afed, 0x6a267e96,
      0xba7c9045, 0xf12c7f99, 0x24a19947, 0xb3916cf7, 0x0801f2e2, 0x858efc16, 0x636920d8, 0x71574e69,
      0xa458fea3, 0xf4933d7e, 0x0d95748f, 0x728eb658, 0x718bcd58, 0x82154aee, 0x7b54a41d, 0xc25a59b5]
  | 3 => [0x9c30d539, 0x2af26013, 0xc5d1b023, 0x286085f0, 0xca417918, 0xb8db38ef, 0x8e79dcb0, 0x603a180e,
      0x6c9e0e8b, 0xb01e8a3e, 0xd71577c1, 0xbd314b27, 0x78af2fda, 0x55605c60, 0xe65525f3, 0xaa55ab94,
      0x57489862, 0x63e81440, 0x55ca396a, 0x2aab10b6, 0xb4cc5c34, 0x1141e8ce, 0xa15486af, 0x7c72e993,
      0xb3ee1411, 0x636fbc2a, 0x2ba9c55d, 0x741831f6, 0xce5c3e16, 0x9b87931e, 0xafd6ba33, 0x6c24cf5c]
  | 4 => [0x7a325381, 0x28958677, 0x3b8f4898, 0x6b4bb9af, 0xc4bfe81b, 0x66282193, 0x61d809cc, 0xfb21a991,
      0x487cac60, 0x5dec8032, 0xef845d5d, 0xe98575b1, 0xdc262302, 0xeb651b88, 0x23893e81, 0xd396acc5,
      0x0f6d6ff3, 0x83f44239, 0x2e0b4482, 0xa4842004, 0x69c8f04a, 0x9e1f9b5e, 0x21c66842, 0xf6e96c9a,
      0x670c9c61, 0xabd388f0, 0x6a51a0d2, 0xd8542f68, 0x960fa728, 0xab5133a3, 0x6eef0b6c, 0x137a3be4]
  | _ => [0xba3bf050, 0x7efb2a98, 0xa1f1651d, 0x39af0176, 0x66ca593e, 0x82430e88, 0x8cee8619, 0x456f9fb4,
      0x7d84a5c3, 0x3b8b5ebe, 0xe06f75d8, 0x85c12073, 0x401a449f, 0x56c16aa6, 0x4ed3aa62, 0x363f7706,
      0x1bfedf72, 0x429b023d, 0x37d0d724, 0xd00a1248, 0xdb0fead3, 0x49f1c09b, 0x075372c9, 0x80991b7b,
      0x25d479d8, 0xf6e8def7, 0xe3fe501a, 0xb6794c3b, 0x976ce0bd, 0x04c006ba, 0xc1a94fb6, 0x409f60c4]

/-- The initial register, T0 first. -/
def iv : List U32 :=
  [0x243f6a88, 0x85a308d3, 0x13198a2e, 0x03707344, 0xa4093822, 0x299f31d0, 0x082efa98, 0xec4e6c89]

structure Reg where
  t7 : U32
  t6 : U32
  t5 : U32
  t4 : U32
  t3 : U32
  t2 : U32
  t1 : U32
  t0 : U32

def Reg.get (T : Reg) (i : Nat) : U32 :=
  match i with
  | 0 => T.t0 | 1 => T.t1 | 2 => T.t2 | 3 => T.t3 | 4 => T.t4 | 5 => T.t5 | 6 => T.t6 | _ => T.t7

def step (p j : Nat) (T : Reg) (w k : U32) : Reg :=
  let x (n : Nat) : U32 := T.get ((phi p j).getD (6 - n) 0)
  let P := f j (x 6) (x 5) (x 4) (x 3) (x 2) (x 1) (x 0)
  let R := P.rotateRight 7 + T.t7.rotateRight 11 + w + k
  ⟨T.t6, T.t5, T.t4, T.t3, T.t2, T.t1, T.t0, R⟩

/-- Pass j of p over a block given as 32 words. -/
def pass (p j : Nat) (W : Nat → U32) (T : Reg) : Reg :=
  (List.range 32).foldl (fun T i => step p j T (W ((ord j).getD i 0)) ((K j).getD i 0)) T

def add (a b : Reg) : Reg := ⟨a.t7 + b.t7, a.t6 + b.t6, a.t5 + b.t5, a.t4 + b.t4, a.t3 + b.t3, a.t2 + b.t2, a.t1 + b.t1, a.t0 + b.t0⟩

/-- The updating function H with p passes. -/
def compress (p : Nat) (T : Reg) (blk : Bytes) : Reg :=
  add (((List.range p).map (· + 1)).foldl (fun T j => pass p j (fun i => getLE32 blk (4 * i)) T) T) T

/-- The last 10 bytes: VERSION = 1 (3 bits), PASS (3 bits), FPTLEN (10 bits), MSGLEN (64 bits), low bits first. -/
def trailer (p fptlen n : Nat) : Bytes :=
  [BitVec.ofNat 8 (1 + 8 * p + 64 * (fptlen % 4)), BitVec.ofNat 8 (fptlen / 4)] ++ le64 (BitVec.ofNat 64 n)

/-- A 1 bit, zero bits up to 944 mod 1024 bits, the trailer. -/
def pad (p fptlen : Nat) (m : Bytes) : Bytes := m ++ (0x01 :: zeros ((118 + 128 - (m.length + 1) % 128) % 128)) ++ trailer p fptlen (8 * m.length)

/-- Bits hi … lo of a word. -/
def fld (hi lo : Nat) (x : U32) : BitVec (hi + 1 - lo) := x.extractLsb' lo (hi + 1 - lo)

/-- Tailoring of the last register to the output length (in bits). -/
def tailor (fptlen : Nat) (T : Reg) : List U32 :=
  match fptlen with
  | 128 =>
    let X (i b : Nat) : BitVec 8 := (T.get i).extractLsb' (8 * b) 8
    [T.t0 + (X 7 0 ++ X 6 3 ++ X 5 2 ++ X 4 1 : BitVec 32), T.t1 + (X 7 1 ++ X 6 0 ++ X 5 3 ++ X 4 2 : BitVec 32), T.t2 + (X 7 2 ++ X 6 1 ++ X 5 0 ++ X 4 3 : BitVec 32),
      T.t3 + (X 7 3 ++ X 6 2 ++ X 5 1 ++ X 4 0 : BitVec 32)]
  | 160 =>  -- fields of T7, T6, T5: 31-25, 24-19, 18-12, 11-6, 5-0
    [T.t0 + (fld 5 0 T.t7 ++ fld 31 25 T.t6 ++ fld 24 19 T.t5).setWidth 32, T.t1 + (fld 11 6 T.t7 ++ fld 5 0 T.t6 ++ fld 31 25 T.t5).setWidth 32,
      T.t2 + (fld 18 12 T.t7 ++ fld 11 6 T.t6 ++ fld 5 0 T.t5).setWidth 32, T.t3 + (fld 24 19 T.t7 ++ fld 18 12 T.t6 ++ fld 11 6 T.t5).setWidth 32,
      T.t4 + (fld 31 25 T.t7 ++ fld 24 19 T.t6 ++ fld 18 12 T.t5).setWidth 32]
  | 192 =>  -- fields of T7, T6: 31-26, 25-21, 20-16, 15-10, 9-5, 4-0
    [T.t0 + (fld 4 0 T.t7 ++ fld 31 26 T.t6).setWidth 32, T.t1 + (fld 9 5 T.t7 ++ fld 4 0 T.t6).setWidth 32, T.t2 + (fld 15 10 T.t7 ++ fld 9 5 T.t6).setWidth 32,
      T.t3 + (fld 20 16 T.t7 ++ fld 15 10 T.t6).setWidth 32, T.t4 + (fld 25 21 T.t7 ++ fld 20 16 T.t6).setWidth 32, T.t5 + (fld 31 26 T.t7 ++ fld 25 21 T.t6).setWidth 32]
  | 224 =>  -- fields of T7: 31-27, 26-22, 21-18, 17-13, 12-9, 8-4, 3-0
    [T.t0 + (fld 31 27 T.t7).setWidth 32, T.t1 + (fld 26 22 T.t7).setWidth 32, T.t2 + (fld 21 18 T.t7).setWidth 32, T.t3 + (fld 17 13 T.t7).setWidth 32,
      T.t4 + (fld 12 9 T.t7).setWidth 32, T.t5 + (fld 8 4 T.t7).setWidth 32, T.t6 + (fld 3 0 T.t7).setWidth 32]
  | _ => [T.t0, T.t1, T.t2, T.t3, T.t4, T.t5, T.t6, T.t7]

def init : Reg :=
  let v (i : Nat) := iv.getD i 0
  ⟨v 7, v 6, v 5, v 4, v 3, v 2, v 1, v 0⟩

/-- HAVAL with p passes and fptlen output bits. -/
def hash (p fptlen : Nat) (m : Bytes) : Bytes :=
  (tailor fptlen ((fullBlocks 128 (pad p fptlen m)).foldl (compress p) init)).flatMap le32

end Verif.Spec.Haval
