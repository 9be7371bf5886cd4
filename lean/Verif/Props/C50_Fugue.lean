import Verif.Lemmas.FugueObj3
import Verif.LoopBuf
/-
C50, package fugue.
-/
namespace Verif.Props
open Verif.Fugue

/-- The four digests meet the hash contract for Fugue. -/
theorem C50_fugue_contract :
    Refines impl new224 { H := Spec.Fugue.fugue224, size := 28, blockSize := 4 } ∧
    Refines impl new256 { H := Spec.Fugue.fugue256, size := 32, blockSize := 4 } ∧
    Refines impl new384 { H := Spec.Fugue.fugue384, size := 48, blockSize := 4 } ∧
    Refines impl new512 { H := Spec.Fugue.fugue512, size := 64, blockSize := 4 } :=
  ⟨Fugue.refines ok224, Fugue.refines ok256, Fugue.refines ok384, Fugue.refines ok512⟩

/-- The functions Sum224, Sum256, Sum384, Sum512. -/
theorem C50_fugue_oneshot (m : Bytes) :
    sumOf new224 28 m = Spec.Fugue.fugue224 m ∧ sumOf new256 32 m = Spec.Fugue.fugue256 m ∧
    sumOf new384 48 m = Spec.Fugue.fugue384 m ∧ sumOf new512 64 m = Spec.Fugue.fugue512 m :=
  ⟨sumOf_eq ok224 rfl m, sumOf_eq ok256 rfl m, sumOf_eq ok384 rfl m, sumOf_eq ok512 rfl m⟩

/-- The contract on a message cut inside a word, so that the second Write begins in a rotated state, with a Sum in between. -/
example : impl.run new256 [.write (List.replicate 31 7), .sum [], .write [1, 2, 3, 4, 5], .sum []] =
    [.wrote 31, .bytes (Spec.Fugue.fugue256 (List.replicate 31 7)), .wrote 5, .bytes (Spec.Fugue.fugue256 (List.replicate 31 7 ++ [1, 2, 3, 4, 5]))] :=
  Refines.cut C50_fugue_contract.2.1 (List.replicate 31 7) [1, 2, 3, 4, 5]

end Verif.Props
