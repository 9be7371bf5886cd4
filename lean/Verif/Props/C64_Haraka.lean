import Verif.Lemmas.Haraka
/-
C64: Haraka256 and Haraka512 (portable code).
-/
namespace Verif.Props
open Verif.Haraka

/-- For every input the two functions return the Haraka v2 value: the T-table rounds on little-endian words are the AES rounds, the word shuffles are
the mixing layers, and the output words are those of the truncation. -/
theorem C64_haraka (m : Bytes) : haraka256 m = Spec.Haraka.haraka256 m ∧ haraka512 m = Spec.Haraka.haraka512 m := ⟨haraka256_eq m, haraka512_eq m⟩

/-- The result has 32 bytes. -/
theorem C64_haraka_length (m : Bytes) : (haraka256 m).length = 32 ∧ (haraka512 m).length = 32 := by
  constructor
  · unfold haraka256 haraka256Ref; simp [le32_length]
  · unfold haraka512 haraka512Ref; simp [le32_length]

/-- A case: the two test vectors of the paper (a test of the transcription of the specification). -/
example : Spec.Haraka.haraka256 ((List.range 32).map (BitVec.ofNat 8)) =
    [0x80, 0x27, 0xcc, 0xb8, 0x79, 0x49, 0x77, 0x4b, 0x78, 0xd0, 0x54, 0x5f, 0xb7, 0x2b, 0xf7, 0x0c,
     0x69, 0x5c, 0x2a, 0x09, 0x23, 0xcb, 0xd4, 0x7b, 0xba, 0x11, 0x59, 0xef, 0xbf, 0x2b, 0x2c, 0x1c] := by decide +kernel

end Verif.Props
