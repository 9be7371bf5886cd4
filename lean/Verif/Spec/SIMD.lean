import Verif.Words
/-
SIMD (Leurent, Bouillaguet, Fouque: SIMD is a Message Digest, version 1.1), written from the specification.
The state of SIMD-256 has 4 lanes, that of SIMD-512 has 8; with n lanes a state is the list A_0 ... A_{n-1} B_0 ... C_0 ... D_{n-1} and a block has
16 n bytes.
-/
namespace Verif.Spec.SIMD

def g (a : List U32) (i : Nat) : U32 := a.getD i 0

structure Variant where
  /-- lanes -/
  n : Nat
  /-- a root of unity of order 32 n modulo 257 -/
  α : Nat
  /-- the permutations of the lanes, i ↦ i ⊕ p -/
  perms : List Nat
  iv : List U32
  /-- words of the output -/
  out : Nat

/-! Message expansion -/

/-- The vector that is transformed: the bytes of the block, and a 1 at the place 32 n - 1, for the last block also at 32 n - 3. -/
def input (v : Variant) (last : Bool) (b : Bytes) (j : Nat) : Nat :=
  if j < 16 * v.n then (at8 b j).toNat else if j = 32 * v.n - 1 ∨ (last = true ∧ j = 32 * v.n - 3) then 1 else 0
/-- The number-theoretic transform, modulo 257. -/
def y (v : Variant) (last : Bool) (b : Bytes) (i : Nat) : Nat :=
  ((List.range (32 * v.n)).map fun j => input v last b j * v.α ^ (i * j)).sum % 257
/-- The representative between -128 and 128. -/
def lift (y : Nat) : Int := if y ≤ 128 then y else y - 257
/-- The inner code: two numbers times c, modulo 2^16 each. -/
def inner (c : Int) (a b : Nat) : U32 := (BitVec.ofInt 16 (c * lift b) ++ BitVec.ofInt 16 (c * lift a) : BitVec 32)
/-- Lane i of Z_j. -/
def Z (v : Variant) (last : Bool) (b : Bytes) (j i : Nat) : U32 :=
  let k := 2 * v.n * j + 2 * i
  if j < 16 then inner 185 (y v last b k) (y v last b (k + 1))
  else if j < 24 then inner 233 (y v last b (k - 32 * v.n)) (y v last b (k - 16 * v.n))
  else inner 233 (y v last b (k + 1 - 48 * v.n)) (y v last b (k + 1 - 32 * v.n))
def P : List Nat := [4, 6, 0, 2, 7, 5, 3, 1, 15, 11, 12, 8, 9, 13, 10, 14, 17, 18, 23, 20, 22, 21, 16, 19, 30, 24, 25, 31, 27, 29, 28, 26]
def W (v : Variant) (last : Bool) (b : Bytes) (t i : Nat) : U32 := Z v last b (P.getD t 0) i

/-! The Feistel steps -/
def IF (a b c : U32) : U32 := (a &&& b) ||| (~~~ a &&& c)
def MAJ (a b c : U32) : U32 := (a &&& b) ||| (a &&& c) ||| (b &&& c)
/-- One step with the words w, the lane permutation i ↦ i ⊕ p and the rotations r, s. -/
def step (n : Nat) (φ : U32 → U32 → U32 → U32) (p r s : Nat) (w : Nat → U32) (st : List U32) : List U32 :=
  let A := fun i => g st i
  let B := fun i => g st (n + i)
  let C := fun i => g st (2 * n + i)
  let D := fun i => g st (3 * n + i)
  (List.range n).map (fun i => (D i + w i + φ (A i) (B i) (C i)).rotateLeft s + (A (i ^^^ p)).rotateLeft r) ++
    (List.range n).map (fun i => (A i).rotateLeft r) ++ (List.range n).map B ++ (List.range n).map C
def π : List (List Nat) := [[3, 23, 17, 27], [28, 19, 22, 7], [29, 9, 15, 5], [4, 13, 10, 25]]
def rot (k t : Nat) : Nat := (π.getD k []).getD (t % 4) 0
def perm (v : Variant) (t : Nat) : Nat := v.perms.getD (t % v.perms.length) 0

def words (v : Variant) (b : Bytes) : List U32 := (List.range (4 * v.n)).map fun i => getLE32 (b.drop (4 * i))
/-- The compression function; `last` for the block with the length. -/
def compress (v : Variant) (last : Bool) (h : List U32) (b : Bytes) : List U32 :=
  let st := (List.range (4 * v.n)).map fun i => g h i ^^^ g (words v b) i
  let st := (List.range 32).foldl (fun st t => step v.n (if t % 8 < 4 then IF else MAJ) (perm v t) (rot (t / 8) t) (rot (t / 8) (t + 1)) (W v last b t) st) st
  (List.range 4).foldl (fun st t => step v.n IF (perm v (32 + t)) (rot 3 t) (rot 3 (t + 1)) (fun i => g h (v.n * t + i)) st) st

/-- The blocks of the message, the last one filled with zeros. -/
def blocks (v : Variant) (m : Bytes) : List Bytes :=
  fullBlocks (16 * v.n) (m ++ zeros ((16 * v.n - m.length % (16 * v.n)) % (16 * v.n)))
/-- The hash function: the last block has the number of bits of the message. -/
def hash (v : Variant) (m : Bytes) : Bytes :=
  let h := (blocks v m).foldl (compress v false) v.iv
  let h := compress v true h (le64 (BitVec.ofNat 64 (8 * m.length)) ++ zeros (16 * v.n - 8))
  (List.range v.out).flatMap fun i => le32 (g h i)

def iv224 : List U32 := [0x33586E9F, 0x12FFF033, 0xB2D9F64D, 0x6F8FEA53, 0xDE943106, 0x2742E439, 0x4FBAB5AC, 0x62B9FF96,
  0x22E7B0AF, 0xC862B3A8, 0x33E00CDC, 0x236B86A6, 0xF64AE77C, 0xFA373B76, 0x7DC1EE5B, 0x7FB29CE8]
def iv256 : List U32 := [0x4D567983, 0x07190BA9, 0x8474577B, 0x39D726E9, 0xAAF3D925, 0x3EE20B03, 0xAFD5E751, 0xC96006D3,
  0xC2C2BA14, 0x49B3BCB4, 0xF67CAF46, 0x668626C9, 0xE2EAA8D2, 0x1FF47833, 0xD0C661A5, 0x55693DE1]
def iv384 : List U32 := [0x8A36EEBC, 0x94A3BD90, 0xD1537B83, 0xB25B070B, 0xF463F1B5, 0xB6F81E20, 0x0055C339, 0xB4D144D1,
  0x7360CA61, 0x18361A03, 0x17DCB4B9, 0x3414C45A, 0xA699A9D2, 0xE39E9664, 0x468BFE77, 0x51D062F8,
  0xB9E3BFE8, 0x63BECE2A, 0x8FE506B9, 0xF8CC4AC2, 0x7AE11542, 0xB1AADDA1, 0x64B06794, 0x28D2F462,
  0xE64071EC, 0x1DEB91A8, 0x8AC8DB23, 0x3F782AB5, 0x039B5CB8, 0x71DDD962, 0xFADE2CEA, 0x1416DF71]
def iv512 : List U32 := [0x0BA16B95, 0x72F999AD, 0x9FECC2AE, 0xBA3264FC, 0x5E894929, 0x8E9F30E5, 0x2F1DAA37, 0xF0F2C558,
  0xAC506643, 0xA90635A5, 0xE25B878B, 0xAAB7878F, 0x88817F7A, 0x0A02892B, 0x559A7550, 0x598F657E,
  0x7EEF60A1, 0x6B70E3E8, 0x9C1714D1, 0xB958E2A8, 0xAB02675E, 0xED1C014F, 0xCD8D65BB, 0xFDB7A257,
  0x09254899, 0xD699C7BC, 0x9019B6DC, 0x2B9022E4, 0x8FA14956, 0x21BF9BD3, 0xB94D0943, 0x6FFDDC22]

def small (iv : List U32) (out : Nat) : Variant := ⟨4, 139, [1, 2, 3], iv, out⟩
def large (iv : List U32) (out : Nat) : Variant := ⟨8, 41, [1, 6, 2, 3, 5, 7, 4], iv, out⟩

def simd224 : Bytes → Bytes := hash (small iv224 7)
def simd256 : Bytes → Bytes := hash (small iv256 8)
def simd384 : Bytes → Bytes := hash (large iv384 12)
def simd512 : Bytes → Bytes := hash (large iv512 16)

end Verif.Spec.SIMD
