import Verif.Lemmas.HamsiObj
import Verif.LoopBuf
/-
C50, package hamsi.
-/
namespace Verif.Props
open Verif.Hamsi

/-- The four digests meet the hash contract for Hamsi.  (BlockSize returns 32 for all of them; a block has 4 or 8 bytes.) -/
theorem C50_hamsi_contract :
    Refines (impl cfg256) new224 { H := Spec.Hamsi.hamsi224, size := 28, blockSize := 32 } ∧
    Refines (impl cfg256) new256 { H := Spec.Hamsi.hamsi256, size := 32, blockSize := 32 } ∧
    Refines (impl cfg512) new384 { H := Spec.Hamsi.hamsi384, size := 48, blockSize := 32 } ∧
    Refines (impl cfg512) new512 { H := Spec.Hamsi.hamsi512, size := 64, blockSize := 32 } :=
  ⟨Hamsi.refines good224, Hamsi.refines good256, Hamsi.refines good384, Hamsi.refines good512⟩

/-- The functions Sum224, Sum256, Sum384, Sum512 (the model's none would be a padding loop that does not end). -/
theorem C50_hamsi_oneshot (m : Bytes) :
    sumOf new224 28 m = some (Spec.Hamsi.hamsi224 m) ∧ sumOf new256 32 m = some (Spec.Hamsi.hamsi256 m) ∧
    sumOf new384 48 m = some (Spec.Hamsi.hamsi384 m) ∧ sumOf new512 64 m = some (Spec.Hamsi.hamsi512 m) :=
  ⟨sumOf_eq good224 m, sumOf_eq good256 m, sumOf_eq good384 m, sumOf_eq good512 m⟩

/-- The contract on a message cut inside a block, with a Sum in between. -/
example : (impl cfg512).run new512 [.write (List.replicate 31 7), .sum [], .write [1, 2, 3, 4, 5], .sum []] =
    [.wrote 31, .bytes (Spec.Hamsi.hamsi512 (List.replicate 31 7)), .wrote 5, .bytes (Spec.Hamsi.hamsi512 (List.replicate 31 7 ++ [1, 2, 3, 4, 5]))] :=
  Refines.cut C50_hamsi_contract.2.2.2 (List.replicate 31 7) [1, 2, 3, 4, 5]

end Verif.Props
