import Verif.Lemmas.HavalObj
/-
C55: package haval.
-/
namespace Verif.Props
open Verif.Haval

/-- For every one of the fifteen variants the constructor succeeds, and the object meets the full hash.Hash contract against HAVAL, for every history
(the 64-bit length wraps in the code exactly as in the specification's 64-bit MSGLEN). -/
theorem C55_haval_contract (p n : Nat) (hp : p = 3 ∨ p = 4 ∨ p = 5) (hn : n = 128 ∨ n = 160 ∨ n = 192 ∨ n = 224 ∨ n = 256) :
    ∃ d, newDigest (BitVec.ofNat 32 n) (BitVec.ofNat 32 p) = some d ∧ Refines impl d { H := Spec.Haval.hash p n, size := n / 8, blockSize := 128 } := by
  have hnew : ∃ d : Digest, d.passes = p ∧ d.olen = n / 32 ∧ newDigest (BitVec.ofNat 32 n) (BitVec.ofNat 32 p) = some d.reset := by
    refine ⟨{ s := ⟨0, 0, 0, 0, 0, 0, 0, 0⟩, x := [], nx := 0, len := 0, olen := n / 32, passes := p }, rfl, rfl, ?_⟩
    rcases hp with rfl | rfl | rfl <;> rcases hn with rfl | rfl | rfl | rfl | rfl <;> rfl
  obtain ⟨d, h1, h2, h3⟩ := hnew
  have ho : n / 32 = 4 ∨ n / 32 = 5 ∨ n / 32 = 6 ∨ n / 32 = 7 ∨ n / 32 = 8 := by omega
  have e32 : 32 * (n / 32) = n := by omega
  have S : Sim impl { H := Spec.Haval.hash p n, size := n / 8, blockSize := 128 } (Rep p (n / 32)) :=
    { write := fun d m q h => ⟨(d.write q).1, rfl, write_rep p (n / 32) hp d m q h⟩
      sum := fun d m b h => ⟨d, by show some (d, b ++ d.checkSum) = _; rw [checkSum_eq p (n / 32) hp ho d m h, e32], h⟩
      reset := fun d m h => by rw [← h.hp, ← h.ho]; exact reset_rep d
      size := fun d m h => by show d.olen * 4 = n / 8; rw [h.ho]; omega
      blockSize := fun _ _ _ => rfl }
  exact ⟨d.reset, h3, S.refines (by rw [← h1, ← h2]; exact reset_rep d)⟩

/-- No other number of passes is accepted, nor an output of fewer than 128 or more than 287 bits. -/
theorem C55_haval_rejects (n p : U32) (h : ¬ (p.toNat = 3 ∨ p.toNat = 4 ∨ p.toNat = 5) ∨ n.toNat < 128 ∨ 288 ≤ n.toNat) : newDigest n p = none := by
  unfold newDigest
  dsimp only
  rw [BitVec.toNat_ushiftRight, Nat.shiftRight_eq_div_pow]
  split
  · split
    · omega
    · rfl
  · rfl

/-- The output length is not checked exactly: any length from 128 to 287 bits that is no multiple of 32 is rounded down without an error. -/
theorem C55_haval_rounds (n p : U32) : newDigest n p = newDigest (BitVec.ofNat 32 (n.toNat / 32 * 32)) p := by
  have e : (n >>> 5).toNat = (BitVec.ofNat 32 (n.toNat / 32 * 32) >>> 5).toNat := by
    have := n.isLt
    simp only [BitVec.toNat_ushiftRight, BitVec.toNat_ofNat, Nat.shiftRight_eq_div_pow, Nat.reducePow] at *
    omega
  unfold newDigest
  rw [e]

/-- The different (passes, length) variants are different functions: on every message the digests of two lengths differ in length. -/
theorem C55_haval_size (p n : Nat) (hn : n = 128 ∨ n = 160 ∨ n = 192 ∨ n = 224 ∨ n = 256) (m : Bytes) : (Spec.Haval.hash p n m).length = n / 8 := by
  unfold Spec.Haval.hash
  rw [flat32_length]
  rcases hn with rfl | rfl | rfl | rfl | rfl <;> rfl

/-! Known answer tests of the HAVAL paper (tests, not proofs). -/
set_option maxRecDepth 100000 in
example : Spec.Haval.hash 3 128 [] = [0xc6, 0x8f, 0x39, 0x91, 0x3f, 0x90, 0x1f, 0x3d, 0xdf, 0x44, 0xc7, 0x07, 0x35, 0x7a, 0x7d, 0x70] := by decide +kernel
set_option maxRecDepth 100000 in
example : Spec.Haval.hash 5 256 [] = [0xbe, 0x41, 0x7b, 0xb4, 0xdd, 0x5c, 0xfb, 0x76, 0xc7, 0x12, 0x6f, 0x4f, 0x8e, 0xeb, 0x15, 0x53,
  0xa4, 0x49, 0x03, 0x93, 0x07, 0xb1, 0xa3, 0xcd, 0x45, 0x1d, 0xbf, 0xdc, 0x0f, 0xbb, 0xe3, 0x30] := by decide +kernel

end Verif.Props
