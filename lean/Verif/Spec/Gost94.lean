import Verif.Basic
/-
GOST R 34.11-94 (RFC 5831), over a block cipher `E key block` (256-bit keys, 64-bit blocks).  A 256-bit number y is the list of its 32 bytes,
least significant first: the message bytes in their order.
-/
namespace Verif.Spec.Gost94

/-- Bytewise exclusive or. -/
def xor (a b : Bytes) : Bytes := List.zipWith (· ^^^ ·) a b
/-- The i-th 64-bit word, i = 1 … 4, y₁ least significant. -/
def w64 (y : Bytes) (i : Nat) : Bytes := (y.drop (8 * (i - 1))).take 8
/-- A(y₄|y₃|y₂|y₁) = (y₁ ⊕ y₂)|y₄|y₃|y₂ (§5.1). -/
def A (y : Bytes) : Bytes := w64 y 2 ++ w64 y 3 ++ w64 y 4 ++ xor (w64 y 1) (w64 y 2)
/-- P(y₃₂|…|y₁) = y_φ(32)|…|y_φ(1), φ(i + 1 + 4(k - 1)) = 8i + k (§5.1). -/
def P (y : Bytes) : Bytes := (List.range 32).map fun n => let i := n % 4; let k := n / 4 + 1; at8 y (8 * i + k - 1)
/-- C₃ (§5.1), most significant byte first. -/
def C3 : Bytes := hex "ff00ffff000000ffff0000ff00ffff0000ff00ff00ff00ffff00ff00ff00ff00"
/-- The constants C_j, j = 2, 3, 4. -/
def C (j : Nat) : Bytes := if j = 3 then C3.reverse else zeros 32
/-- U and V of step j (from 1) of the key generation. -/
def UV (H M : Bytes) : Nat → Bytes × Bytes
  | 0 => (H, M)
  | j + 1 => (xor (A (UV H M j).1) (C (j + 2)), A (A (UV H M j).2))
/-- The keys K_j, j = 1 … 4. -/
def K (H M : Bytes) (j : Nat) : Bytes := P (xor (UV H M (j - 1)).1 (UV H M (j - 1)).2)
/-- ψ(y₁₆|…|y₁) = (y₁ ⊕ y₂ ⊕ y₃ ⊕ y₄ ⊕ y₁₃ ⊕ y₁₆)|y₁₆|…|y₂ on 16-bit words (§5.3). -/
def w16 (y : Bytes) (i : Nat) : Bytes := (y.drop (2 * (i - 1))).take 2
def psi (y : Bytes) : Bytes := y.drop 2 ++ xor (xor (xor (xor (xor (w16 y 1) (w16 y 2)) (w16 y 3)) (w16 y 4)) (w16 y 13)) (w16 y 16)
def psiN : Nat → Bytes → Bytes
  | 0, y => y
  | n + 1, y => psiN n (psi y)
/-- The step function κ(M, H) (§5). -/
def step (E : Bytes → Bytes → Bytes) (H M : Bytes) : Bytes :=
  let S := E (K H M 1) (w64 H 1) ++ E (K H M 2) (w64 H 2) ++ E (K H M 3) (w64 H 3) ++ E (K H M 4) (w64 H 4)
  psiN 61 (xor H (psi (xor M (psiN 12 S))))

/-- A byte string as a number, first byte least significant, and back. -/
def leNat (b : Bytes) : Nat := b.foldr (fun x a => x.toNat + 256 * a) 0
def leBytes : Nat → Nat → Bytes
  | 0, _ => []
  | n + 1, x => BitVec.ofNat 8 x :: leBytes n (x / 256)
/-- The message in blocks, the last one, if partial, filled with zeros. -/
def blocks (m : Bytes) : List Bytes := fullBlocks 32 m ++ (if restBlock 32 m = [] then [] else [restBlock 32 m ++ zeros (32 - (restBlock 32 m).length)])
/-- The digest (§6): the blocks, the bit length, the sum of the blocks modulo 2^256. -/
def hash (E : Bytes → Bytes → Bytes) (m : Bytes) : Bytes :=
  let H := (blocks m).foldl (step E) (zeros 32)
  let H := step E H (leBytes 32 (8 * m.length))
  step E H (leBytes 32 (((blocks m).map leNat).sum % 2 ^ 256))

end Verif.Spec.Gost94
