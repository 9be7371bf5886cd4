import Verif.Props.C31_LSH
/-
C63: the one-shot functions of lsh256 and lsh512.
-/
namespace Verif.Props
open Verif.LSH

theorem lsh_oneShot {w : Nat} {P : Pkg w} {Q : Spec.LSH.Params w} (hf : Fit P Q) (hs n : Nat) (hle : hs ≤ 8 * (w / 8)) (hiv : P.iv hs = Spec.LSH.iv Q (8 * hs)) (hn : n ≤ hs) (data : Bytes) :
    oneShot P hs n data = (Spec.LSH.hash Q (8 * hs) data).take n := by
  have h := write_rep hf hs (by rw [hiv]; exact iv_length Q hf.ns2 _) _ [] data (reset_rep P Q hs)
  rw [List.nil_append] at h
  have hl : n ≤ (Spec.LSH.hash Q (8 * hs) data).length := by
    rw [← checkSum_eq hf hs hle hiv _ _ h]
    unfold Digest.checkSum
    rw [List.length_map, List.length_range, h.size]; exact hn
  unfold oneShot
  rw [checkSum_eq hf hs hle hiv _ _ h]
  unfold goCopy
  rw [zeros_length]
  simp [hl]

/-- Sum256 and Sum224 of lsh256 and Sum of lsh512 return the standard's digest of every message. -/
theorem C63_lsh_oneshot_partial (data : Bytes) :
    sum256_256 data = Spec.LSH.hash Spec.LSH.lsh256 256 data ∧ sum256_224 data = Spec.LSH.hash Spec.LSH.lsh256 224 data ∧ sum512_512 data = Spec.LSH.hash Spec.LSH.lsh512 512 data := by
  have l1 : ∀ (n k : Nat) (x : Bytes), (x.take n).take n = x.take n := fun n _ x => by rw [List.take_take, Nat.min_self]
  refine ⟨?_, ?_, ?_⟩
  · exact (lsh_oneShot lsh256_fit 32 32 (by decide) (by decide +kernel) (by decide) data).trans (l1 _ 0 _)
  · exact (lsh_oneShot lsh256_fit 28 28 (by decide) (by decide +kernel) (by decide) data).trans (l1 _ 0 _)
  · exact (lsh_oneShot lsh512_fit 64 64 (by decide) (by decide +kernel) (by decide) data).trans (l1 _ 0 _)

/-- Sum384, Sum256 and Sum224 of lsh512 return a truncation of LSH-512-512 instead, for every message. -/
theorem C63_lsh512_truncates (data : Bytes) :
    sum512_384 data = (Spec.LSH.hash Spec.LSH.lsh512 512 data).take 48 ∧ sum512_256 data = (Spec.LSH.hash Spec.LSH.lsh512 512 data).take 32 ∧
      sum512_224 data = (Spec.LSH.hash Spec.LSH.lsh512 512 data).take 28 :=
  ⟨lsh_oneShot lsh512_fit 64 48 (by decide) (by decide +kernel) (by decide) data, lsh_oneShot lsh512_fit 64 32 (by decide) (by decide +kernel) (by decide) data,
    lsh_oneShot lsh512_fit 64 28 (by decide) (by decide +kernel) (by decide) data⟩

/-- And that is not the digest their names promise and that New384, New256 and New224 compute. -/
theorem C63_lsh512_oneshot_violated :
    sum512_384 [] ≠ Spec.LSH.hash Spec.LSH.lsh512 384 [] ∧ sum512_256 [] ≠ Spec.LSH.hash Spec.LSH.lsh512 256 [] ∧ sum512_224 [] ≠ Spec.LSH.hash Spec.LSH.lsh512 224 [] := by
  obtain ⟨h1, h2, h3⟩ := C63_lsh512_truncates []
  rw [h1, h2, h3]
  refine ⟨?_, ?_, ?_⟩ <;> decide +kernel

end Verif.Props
