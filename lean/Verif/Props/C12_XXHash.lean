import Verif.Lemmas.XXHash
/-
C12: `xxhash32.New/NewWithSeed` and `xxhash64.New/NewWithSeed` under every history of calls in
which the message stays below 2^64 bytes (the 64-bit counter of the code).
-/
namespace Verif.Props

/-- XXH32, big-endian. -/
def xxh32Spec (seed : U32) : HashSpec :=
  { H := fun m => be32 (Spec.XXHash.xxh32 seed m), size := 4, blockSize := 16 }
/-- XXH64, big-endian. -/
def xxh64Spec (seed : U64) : HashSpec :=
  { H := fun m => be64 (Spec.XXHash.xxh64 seed m), size := 8, blockSize := 32 }

theorem C12_xxh32_refines (seed : U32) :
    RefinesOn (Fits (2^64)) (XXHash32.impl seed) (XXHash32.new seed) (xxh32Spec seed) := by
  refine refinesOn_fits_of_sim _ _ _ _ (fun d m => d.Repr 16 XXHash32.compress (XXHash32.s₀ seed) m)
    (XXHash32.new_repr seed) ?_ ?_ ?_ (fun _ _ _ => rfl) (fun _ _ _ => rfl)
  · intro d m p h _
    have := h.absorb (by decide) p
    exact ⟨_, rfl, this⟩
  · intro d m b h hm
    refine ⟨d, ?_, h⟩
    simp only [XXHash32.impl, XXHash32.sum32_eq seed d m hm h, xxh32Spec]
  · intro d m h
    exact XXHash32.reset_repr seed h.buf.xlen

theorem C12_xxh64_refines (seed : U64) :
    RefinesOn (Fits (2^64)) (XXHash64.impl seed) (XXHash64.new seed) (xxh64Spec seed) := by
  refine refinesOn_fits_of_sim _ _ _ _ (fun d m => d.Repr 32 XXHash64.compress (XXHash64.s₀ seed) m)
    (XXHash64.new_repr seed) ?_ ?_ ?_ (fun _ _ _ => rfl) (fun _ _ _ => rfl)
  · intro d m p h _
    have := h.absorb (by decide) p
    exact ⟨_, rfl, this⟩
  · intro d m b h hm
    refine ⟨d, ?_, h⟩
    simp only [XXHash64.impl, XXHash64.sum64_eq seed d m hm h, xxh64Spec]
  · intro d m h
    exact XXHash64.reset_repr seed h.buf.xlen

/-- `Checksum`, `ChecksumWithSeed` (and, big-endian, `Sum`, `SumWithSeed`) of xxhash32. -/
theorem C12_xxh32_checksum (seed : U32) (m : Bytes) (hm : m.length < 2^64) :
    XXHash32.checksum m seed = Spec.XXHash.xxh32 seed m := by
  unfold XXHash32.checksum
  have h0 : (XXHash32.new seed).Repr 16 XXHash32.compress (XXHash32.s₀ seed) [] :=
    XXHash32.new_repr seed
  have := h0.absorb (by omega) m
  rw [List.nil_append] at this
  exact XXHash32.sum32_eq seed _ m hm this

/-- The same for xxhash64. -/
theorem C12_xxh64_checksum (seed : U64) (m : Bytes) (hm : m.length < 2^64) :
    XXHash64.checksum m seed = Spec.XXHash.xxh64 seed m := by
  unfold XXHash64.checksum
  have h0 : (XXHash64.new seed).Repr 32 XXHash64.compress (XXHash64.s₀ seed) [] :=
    XXHash64.new_repr seed
  have := h0.absorb (by omega) m
  rw [List.nil_append] at this
  exact XXHash64.sum64_eq seed _ m hm this

-- Tests (vectors of xxhash32_test.go, xxhash64_test.go).
set_option maxRecDepth 100000 in
example : ((XXHash32.impl 0).run (XXHash32.new 0) [.write (ascii "abcdefghijk"), .sum [],
    .write (ascii "lmnopqrstuvwxyz0123456789"), .sum []]).getLast? = some (.bytes (hex "42ae804d")) := by decide +kernel
set_option maxRecDepth 100000 in
example : ((XXHash64.impl 0).run (XXHash64.new 0) [.write (ascii "abcdefghijk"), .sum [],
    .write (ascii "lmnopqrstuvwxyz0123456789"), .sum []]).getLast? = some (.bytes (hex "64f23ecf1609b766")) := by decide +kernel
set_option maxRecDepth 100000 in
example : XXHash64.checksum (ascii "abcdefg") 0 = 0x1860940e2902822d#64 := by decide +kernel
example : Fits (2^64) [.write (ascii "abc"), .sum [], .reset] := by
  intro k
  match k with
  | 0 | 1 | 2 | k+3 => simp [msgAfter, ascii]

end Verif.Props
