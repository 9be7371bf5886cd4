import Verif.Basic
/-
Ascon v1.2 (Dobraunig, Eichlseder, Mendel, Schläffer): the permutations, Ascon-128, Ascon-Hash,
Ascon-HashA, Ascon-XOF; and Ascon-MAC (ePrint 2021/1574).
-/
namespace Verif.Spec.Ascon

/-- The 320-bit state as five words. -/
structure S where
  x0 : U64
  x1 : U64
  x2 : U64
  x3 : U64
  x4 : U64
  deriving DecidableEq

/-- Table of the 5-bit S-box. -/
def sbox : List Nat := [
  0x4, 0xb, 0x1f, 0x14, 0x1a, 0x15, 0x9, 0x2, 0x1b, 0x5, 0x8, 0x12, 0x1d, 0x3, 0x6, 0x1c,
  0x1e, 0x13, 0x7, 0xe, 0x0, 0xd, 0x11, 0x18, 0x10, 0xc, 0x1, 0x19, 0x16, 0xa, 0xf, 0x17]

/-- The word whose bits are `f 0`, …, `f 63`. -/
def ofBits (f : Nat → Bool) : U64 := (List.range 64).foldl (fun a i => if f i then a ||| (1#64 <<< i) else a) 0

/-- Column `i` of the state as a number, `x0` first. -/
def column (s : S) (i : Nat) : Nat :=
  16 * (s.x0.getLsbD i).toNat + 8 * (s.x1.getLsbD i).toNat + 4 * (s.x2.getLsbD i).toNat +
  2 * (s.x3.getLsbD i).toNat + (s.x4.getLsbD i).toNat

/-- `p_C`: addition of the round constant. -/
def pC (r : Nat) (s : S) : S := { s with x2 := s.x2 ^^^ BitVec.ofNat 64 ((0xf - r) * 16 + r) }
/-- `p_S`: the S-box on the 64 columns. -/
def pS (s : S) : S :=
  let y := fun k => ofBits fun i => (sbox.getD (column s i) 0).testBit k
  ⟨y 4, y 3, y 2, y 1, y 0⟩
/-- `p_L`. -/
def pL (s : S) : S where
  x0 := s.x0 ^^^ s.x0.rotateRight 19 ^^^ s.x0.rotateRight 28
  x1 := s.x1 ^^^ s.x1.rotateRight 61 ^^^ s.x1.rotateRight 39
  x2 := s.x2 ^^^ s.x2.rotateRight 1 ^^^ s.x2.rotateRight 6
  x3 := s.x3 ^^^ s.x3.rotateRight 10 ^^^ s.x3.rotateRight 17
  x4 := s.x4 ^^^ s.x4.rotateRight 7 ^^^ s.x4.rotateRight 41
/-- `p^a`. -/
def p (a : Nat) (s : S) : S := (List.range a).foldl (fun s i => pL (pS (pC (12 - a + i) s))) s

/-- A message padded by `1 0*` to blocks of `r` bytes. -/
def pad (r : Nat) (m : Bytes) : List Bytes := fullBlocks r (m ++ [0x80#8] ++ zeros (r - 1 - m.length % r))

/-- XOR of eight bytes into the rate. -/
def absorb (s : S) (b : Bytes) : S := { s with x0 := s.x0 ^^^ getBE64 b }

/-! ### Ascon-128 -/

/-- Initialization. -/
def init (key nonce : Bytes) : S :=
  let s := p 12 ⟨0x80400c0600000000, getBE64 key 0, getBE64 key 8, getBE64 nonce 0, getBE64 nonce 8⟩
  { s with x3 := s.x3 ^^^ getBE64 key 0, x4 := s.x4 ^^^ getBE64 key 8 }
/-- Associated data and domain separation. -/
def mixAD (s : S) (ad : Bytes) : S :=
  let s := if ad = [] then s else (pad 8 ad).foldl (fun s b => p 6 (absorb s b)) s
  { s with x4 := s.x4 ^^^ 1 }
/-- The plaintext blocks: the state after the last one (not permuted) and the ciphertext. -/
def duplex : S → List Bytes → S × Bytes
  | s, [] => (s, [])
  | s, [b] => (absorb s b, be64 (absorb s b).x0)
  | s, b :: bs =>
    let r := duplex (p 6 (absorb s b)) bs
    (r.1, be64 (absorb s b).x0 ++ r.2)
/-- Finalization. -/
def tag (key : Bytes) (s : S) : Bytes :=
  let s := p 12 { s with x1 := s.x1 ^^^ getBE64 key 0, x2 := s.x2 ^^^ getBE64 key 8 }
  be64 (s.x3 ^^^ getBE64 key 0) ++ be64 (s.x4 ^^^ getBE64 key 8)
/-- Authenticated encryption: ciphertext and tag. -/
def encrypt (key nonce ad pt : Bytes) : Bytes :=
  let r := duplex (mixAD (init key nonce) ad) (pad 8 pt)
  r.2.take pt.length ++ tag key r.1

/-! ### Hashing -/

/-- The IV: rate, rounds `a`, `a - b`, output length in bits (0: extendable). -/
def hashInit (b h : Nat) : S :=
  p 12 ⟨BitVec.ofNat 8 0 ++ BitVec.ofNat 8 64 ++ BitVec.ofNat 8 12 ++ BitVec.ofNat 8 (12 - b) ++ BitVec.ofNat 32 h, 0, 0, 0, 0⟩
/-- The state after the padded message, `p^b` between blocks and `p^12` after the last. -/
def hashAbsorb (b : Nat) : S → List Bytes → S
  | s, [] => s
  | s, [m] => p 12 (absorb s m)
  | s, m :: ms => hashAbsorb b (p b (absorb s m)) ms
/-- Block `i` of the output stream. -/
def squeeze (b : Nat) : S → Nat → U64
  | s, 0 => s.x0
  | s, i + 1 => squeeze b (p b s) i
/-- The first `n` blocks of the output stream of a message. -/
def stream (b h : Nat) (m : Bytes) (n : Nat) : Bytes :=
  ((List.range n).map fun i => be64 (squeeze b (hashAbsorb b (hashInit b h) (pad 8 m)) i)).flatten
/-- Ascon-Hash (`b = 12`) and Ascon-HashA (`b = 8`). -/
def hash (b : Nat) (m : Bytes) : Bytes := stream b 256 m 4
/-- Byte `i` of the Ascon-XOF stream. -/
def xof (m : Bytes) (i : Nat) : Byte := at8 (stream 12 0 m (i / 8 + 1)) i

/-! ### Ascon-MAC -/

/-- XOR of 32 bytes into the state. -/
def absorb32 (s : S) (b : Bytes) : S :=
  { s with x0 := s.x0 ^^^ getBE64 b 0, x1 := s.x1 ^^^ getBE64 b 8, x2 := s.x2 ^^^ getBE64 b 16, x3 := s.x3 ^^^ getBE64 b 24 }
/-- The blocks, with the domain separation bit before the last permutation. -/
def macAbsorb : S → List Bytes → S
  | s, [] => s
  | s, [m] => let s := absorb32 s m; p 12 { s with x4 := s.x4 ^^^ 1 }
  | s, m :: ms => macAbsorb (p 12 (absorb32 s m)) ms
def mac (key m : Bytes) : Bytes :=
  let s := macAbsorb (p 12 ⟨0x80808c0000000080, getBE64 key 0, getBE64 key 8, 0, 0⟩) (pad 32 m)
  be64 s.x0 ++ be64 s.x1

end Verif.Spec.Ascon
