import Verif.Lemmas.Belt
/-
C49: package belt.
-/
namespace Verif.Props
open Verif.Belt

/-- The full hash.Hash contract against belt-hash of STB 34.101.31, for every history (the length counter of both is 128 bits, so no bound is needed). -/
theorem C49_belt_contract : Refines impl new { H := Spec.Belt.hash, size := 32, blockSize := 32 } := by
  have S : Sim impl { H := Spec.Belt.hash, size := 32, blockSize := 32 } Rep :=
    { write := fun d m p h => ⟨(d.write p).1, rfl, write_rep d m p h⟩
      sum := fun d m b h => ⟨d, by show some (d, b ++ d.checkSum) = _; rw [checkSum_eq d m h], h⟩
      reset := fun d m _ => reset_rep d
      size := fun _ _ _ => rfl
      blockSize := fun _ _ _ => rfl }
  exact S.refines (reset_rep _)

/-- C62: the block cipher BeltEncrypt is, for every 32-byte key schedule, the cipher F of the standard … -/
theorem C62_belt_encrypt (x ks : Bytes) : belt_encrypt x ks = Spec.Belt.F ks x := enc_eq x ks

/-- … and the package's decryption undoes it on every 16-byte block, so no two blocks have the same encryption. -/
theorem C62_belt_decrypt (x ks : Bytes) (h : x.length = 16) : belt_decrypt (belt_encrypt x ks) ks = x := dec_enc x ks h

theorem C62_belt_injective (x y ks : Bytes) (hx : x.length = 16) (hy : y.length = 16) (h : belt_encrypt x ks = belt_encrypt y ks) : x = y := by
  rw [← dec_enc x ks hx, ← dec_enc y ks hy, h]

example : (zeros 16).length = 16 := by decide

/-! Known answer test of the standard, A.23 (a test, not a proof). -/
set_option maxRecDepth 100000 in
example : Spec.Belt.hash (Spec.Belt.H.take 13) = hex "abef9725d4c5a83597a367d14494cc2542f20f659ddfecc961a3ec550cba8c75" := by decide +kernel

end Verif.Props
