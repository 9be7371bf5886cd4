import Verif.Lemmas.SIMDObj
/-
C50, package simd.
-/
namespace Verif.Props
open Verif.SIMD

/-- The four digests meet the hash contract for SIMD. -/
theorem C50_simd_contract :
    Refines (impl cfg256) new224 { H := Spec.SIMD.simd224, size := 28, blockSize := 64 } ∧
    Refines (impl cfg256) new256 { H := Spec.SIMD.simd256, size := 32, blockSize := 64 } ∧
    Refines (impl cfg512) new384 { H := Spec.SIMD.simd384, size := 48, blockSize := 128 } ∧
    Refines (impl cfg512) new512 { H := Spec.SIMD.simd512, size := 64, blockSize := 128 } :=
  ⟨SIMD.refines good224, SIMD.refines good256, SIMD.refines good384, SIMD.refines good512⟩

/-- The functions Sum224, Sum256, Sum384, Sum512. -/
theorem C50_simd_oneshot (m : Bytes) :
    sumOf cfg256 new224 28 m = Spec.SIMD.simd224 m ∧ sumOf cfg256 new256 32 m = Spec.SIMD.simd256 m ∧
    sumOf cfg512 new384 48 m = Spec.SIMD.simd384 m ∧ sumOf cfg512 new512 64 m = Spec.SIMD.simd512 m :=
  ⟨sumOf_eq good224 m, sumOf_eq good256 m, sumOf_eq good384 m, sumOf_eq good512 m⟩

/-- The fast transform (radix-2 butterflies on int32 with the lazy reductions) gives the number-theoretic transform of the specification, for every
block: no intermediate value overflows. -/
theorem C50_simd_ntt (iv : List U32) (out : Nat) (x : Bytes) (last : Bool) :
    (∀ i < 128, (reduce ((ntt256 x).getD i 0 + (if last then yoffF256 else yoffN256).getD i 0)).toInt = Spec.SIMD.lift (Spec.SIMD.y (Spec.SIMD.small iv out) last x i)) ∧
    (∀ i < 256, (reduce ((ntt512 x).getD i 0 + (if last then yoffF512 else yoffN512).getD i 0)).toInt = Spec.SIMD.lift (Spec.SIMD.y (Spec.SIMD.large iv out) last x i)) :=
  ⟨fun i hi => by
    have := q_spec (small_cfg iv out) x last i hi
    simp only [cfg256] at this
    exact this, fun i hi => by
    have := q_spec (large_cfg iv out) x last i hi
    simp only [cfg512] at this
    exact this⟩

/-- The contract on a message cut inside a block, with a Sum in between. -/
example : (impl cfg256).run new256 [.write (List.replicate 70 7), .sum [], .write [1, 2, 3, 4, 5], .sum []] =
    [.wrote 70, .bytes (Spec.SIMD.simd256 (List.replicate 70 7)), .wrote 5, .bytes (Spec.SIMD.simd256 (List.replicate 70 7 ++ [1, 2, 3, 4, 5]))] :=
  Refines.cut C50_simd_contract.2.1 (List.replicate 70 7) [1, 2, 3, 4, 5]

end Verif.Props
