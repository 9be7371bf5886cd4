import Verif.Lemmas.Murmur3
/-
C13: the murmur3 objects and one-shot functions.
-/
namespace Verif.Props

/-- MurmurHash3_x86_32, big-endian. -/
def murmur32Spec (seed : U32) : HashSpec :=
  { H := fun m => be32 (Spec.Murmur3.x86_32 seed m), size := 4, blockSize := 1 }
/-- MurmurHash3_x64_128, the two halves big-endian. -/
def murmur128Spec (seed : U32) : HashSpec :=
  { H := fun m => be64 (Spec.Murmur3.x64_128 seed m).1 ++ be64 (Spec.Murmur3.x64_128 seed m).2, size := 16, blockSize := 1 }
/-- The first half of MurmurHash3_x64_128; what `Size()` claims is left as a parameter. -/
def murmur64Spec (seed : U32) (size : Nat) : HashSpec :=
  { H := fun m => be64 (Spec.Murmur3.x64_128 seed m).1, size := size, blockSize := 1 }

theorem C13_murmur32_refines (seed : U32) :
    Refines (Murmur3.impl32 seed) (Murmur3.new32 seed) (murmur32Spec seed) := by
  refine Sim.refines (R := fun d m => Murmur3.Repr 4 (fun h b => Murmur3.step32 h (getLE32 b)) seed d m)
    ⟨?_, ?_, ?_, fun _ _ _ => rfl, fun _ _ _ => rfl⟩ (Murmur3.init_repr ..)
  · intro d m p h
    exact ⟨_, rfl, Murmur3.write_repr (by decide) (by decide) Murmur3.bmix32_eq h p⟩
  · intro d m b h
    refine ⟨d, ?_, h⟩
    simp only [Murmur3.impl32, Murmur3.sum32_eq seed d m h, murmur32Spec]
  · intro d m h; exact Murmur3.init_repr ..

theorem C13_murmur128_refines (seed : U32) :
    Refines (Murmur3.impl128 seed) (Murmur3.new128 seed) (murmur128Spec seed) := by
  refine Sim.refines (R := fun d m => Murmur3.Repr 16 Spec.Murmur3.X64_128.body (seed.setWidth 64, seed.setWidth 64) d m)
    ⟨?_, ?_, ?_, fun _ _ _ => rfl, fun _ _ _ => rfl⟩ (Murmur3.init_repr ..)
  · intro d m p h
    exact ⟨_, rfl, Murmur3.write_repr (by decide) (by decide) Murmur3.bmix128_eq h p⟩
  · intro d m b h
    refine ⟨d, ?_, h⟩
    simp only [Murmur3.impl128, Murmur3.sum128_eq seed d m h, murmur128Spec]
  · intro d m h; exact Murmur3.init_repr ..

/-- New64 is right except for what `Size()` returns. -/
theorem C13_murmur64_partial (seed : U32) :
    Refines (Murmur3.impl64 seed) (Murmur3.new128 seed) (murmur64Spec seed 16) := by
  refine Sim.refines (R := fun d m => Murmur3.Repr 16 Spec.Murmur3.X64_128.body (seed.setWidth 64, seed.setWidth 64) d m)
    ⟨?_, ?_, ?_, fun _ _ _ => rfl, fun _ _ _ => rfl⟩ (Murmur3.init_repr ..)
  · intro d m p h
    exact ⟨_, rfl, Murmur3.write_repr (by decide) (by decide) Murmur3.bmix128_eq h p⟩
  · intro d m b h
    refine ⟨d, ?_, h⟩
    simp only [Murmur3.impl64, Murmur3.sum128_eq seed d m h, murmur64Spec]
  · intro d m h; exact Murmur3.init_repr ..

/-- In every state, `Sum` of a New64 object appends a number of bytes different from `Size()`; the
contract of `hash.Hash` (`Sum` appends `Size()` bytes) does not hold. -/
theorem C13_murmur64_size_violated (seed : U32) (d : Murmur3.Digest (U64 × U64)) (b : Bytes) :
    ∃ out, (Murmur3.impl64 seed).sum d b = some (d, b ++ out) ∧ out.length = 8 ∧
      (Murmur3.impl64 seed).size d ≠ out.length :=
  ⟨_, rfl, rfl, by show (16 : Nat) ≠ 8; decide⟩

/-- No specification that is 8 bytes wide is refined. -/
theorem C13_murmur64_refines_violated (seed : U32) :
    ¬ Refines (Murmur3.impl64 seed) (Murmur3.new128 seed) (murmur64Spec seed 8) := by
  intro h
  have := h [.size]
  simp [HashImpl.run, HashSpec.run, Murmur3.impl64, murmur64Spec] at this

/-- `Sum32WithSeed`, `Sum32`. -/
theorem C13_sum32WithSeed (m : Bytes) (seed : U32) :
    Murmur3.sum32WithSeed m seed = Spec.Murmur3.x86_32 seed m := by
  have h : Murmur3.sum32WithSeed m seed =
      Murmur3.sum32 { h := (Murmur3.bmix32 seed m).1, tail := (Murmur3.bmix32 seed m).2, clen := BitVec.ofNat 64 m.length } := rfl
  rw [h, Murmur3.bmix32_eq]
  exact Murmur3.sum32_eq seed _ m ⟨rfl, rfl, rfl⟩

/-- `Sum128WithSeed`, `Sum128`. -/
theorem C13_sum128WithSeed (m : Bytes) (seed : U32) :
    Murmur3.sum128WithSeed m seed = Spec.Murmur3.x64_128 seed m := by
  unfold Murmur3.sum128WithSeed
  rw [Murmur3.bmix128_eq]
  exact Murmur3.sum128_eq seed _ m ⟨rfl, rfl, rfl⟩

/-- `Sum64WithSeed`, `Sum64`. -/
theorem C13_sum64WithSeed (m : Bytes) (seed : U32) :
    Murmur3.sum64WithSeed m seed = (Spec.Murmur3.x64_128 seed m).1 := by
  rw [← C13_sum128WithSeed]; rfl

-- Tests (murmur_test.go).
set_option maxRecDepth 100000 in
example : ((Murmur3.impl32 0).run (Murmur3.new32 0) [.write (ascii "hell"), .sum [], .write (ascii "o"), .sum []]).getLast? =
    some (.bytes (hex "248bfa47")) := by decide +kernel
set_option maxRecDepth 100000 in
example : ((Murmur3.impl128 0x2a).run (Murmur3.new128 0x2a) [.write (ascii "The quick brown fox"), .sum [],
    .write (ascii " jumps over the lazy dog."), .sum []]).getLast? =
    some (.bytes (hex "74f33c659cda5af74ec7a891caf316f0")) := by decide +kernel

end Verif.Props
