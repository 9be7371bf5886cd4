import Verif.Lemmas.BMWObj
/-
C50, package bmw.
-/
namespace Verif.Props
open Verif.BMW

/-- The four digests meet the hash contract for Blue Midnight Wish. -/
theorem C50_bmw_contract :
    Refines (impl cfg256) new224 { H := Spec.BMW.bmw224, size := 28, blockSize := 64 } ∧
    Refines (impl cfg256) new256 { H := Spec.BMW.bmw256, size := 32, blockSize := 64 } ∧
    Refines (impl cfg512) new384 { H := Spec.BMW.bmw384, size := 48, blockSize := 128 } ∧
    Refines (impl cfg512) new512 { H := Spec.BMW.bmw512, size := 64, blockSize := 128 } := by
  refine ⟨?_, ?_, ?_, ?_⟩
  · refine BMW.refines ok256 initVal224 28 rfl _ fun m => ?_
    rw [out32, iv224_eq]; rfl
  · refine BMW.refines ok256 initVal256 32 rfl _ fun m => ?_
    rw [out32, iv256_eq]; rfl
  · refine BMW.refines ok512 initVal384 48 rfl _ fun m => ?_
    rw [out64, iv384_eq]; rfl
  · refine BMW.refines ok512 initVal512 64 rfl _ fun m => ?_
    rw [out64, iv512_eq]; rfl

/-- The functions Sum224, Sum256, Sum384, Sum512. -/
theorem C50_bmw_oneshot (m : Bytes) :
    sumOf cfg256 new224 28 m = Spec.BMW.bmw224 m ∧ sumOf cfg256 new256 32 m = Spec.BMW.bmw256 m ∧
    sumOf cfg512 new384 48 m = Spec.BMW.bmw384 m ∧ sumOf cfg512 new512 64 m = Spec.BMW.bmw512 m := by
  refine ⟨?_, ?_, ?_, ?_⟩
  · exact sumOf_eq ok256 initVal224 28 rfl _ (fun m => by rw [out32, iv224_eq]; rfl) m (bmw32_length _ _ _ (by omega))
  · exact sumOf_eq ok256 initVal256 32 rfl _ (fun m => by rw [out32, iv256_eq]; rfl) m (bmw32_length _ _ _ (by omega))
  · exact sumOf_eq ok512 initVal384 48 rfl _ (fun m => by rw [out64, iv384_eq]; rfl) m (bmw64_length _ _ _ (by omega))
  · exact sumOf_eq ok512 initVal512 64 rfl _ (fun m => by rw [out64, iv512_eq]; rfl) m (bmw64_length _ _ _ (by omega))

/-- The contract on a message cut where the padding needs a second block, with a Sum in between. -/
example : (impl cfg256).run new256 [.write (List.replicate 60 7), .sum [], .write [1, 2, 3, 4, 5], .sum []] =
    [.wrote 60, .bytes (Spec.BMW.bmw256 (List.replicate 60 7)), .wrote 5, .bytes (Spec.BMW.bmw256 (List.replicate 60 7 ++ [1, 2, 3, 4, 5]))] :=
  Refines.cut C50_bmw_contract.2.1 (List.replicate 60 7) [1, 2, 3, 4, 5]

end Verif.Props
