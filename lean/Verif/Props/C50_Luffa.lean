import Verif.Lemmas.LuffaObj
import Verif.LoopBuf
/-
C50, package luffa.
-/
namespace Verif.Props
open Verif.Luffa

/-- The four digests meet the hash contract for Luffa. -/
theorem C50_luffa_contract :
    Refines (impl cfg256) new224 { H := Spec.Luffa.luffa224, size := 28, blockSize := 32 } ∧
    Refines (impl cfg256) new256 { H := Spec.Luffa.luffa256, size := 32, blockSize := 32 } ∧
    Refines (impl cfg384) new384 { H := Spec.Luffa.luffa384, size := 48, blockSize := 32 } ∧
    Refines (impl cfg512) new512 { H := Spec.Luffa.luffa512, size := 64, blockSize := 32 } :=
  ⟨Luffa.refines ok256 28 _ H224, Luffa.refines ok256 32 _ H256, Luffa.refines ok384 48 _ H384, Luffa.refines ok512 64 _ H512⟩

/-- The functions Sum224, Sum256, Sum384, Sum512. -/
theorem C50_luffa_oneshot (m : Bytes) :
    sumOf cfg256 new224 28 m = Spec.Luffa.luffa224 m ∧ sumOf cfg256 new256 32 m = Spec.Luffa.luffa256 m ∧
    sumOf cfg384 new384 48 m = Spec.Luffa.luffa384 m ∧ sumOf cfg512 new512 64 m = Spec.Luffa.luffa512 m :=
  ⟨sumOf_eq ok256 28 _ H224 m (luffa_length 3 7 m (by omega) (by omega)),
   sumOf_eq ok256 32 _ H256 m (luffa_length 3 8 m (by omega) (by omega)),
   sumOf_eq ok384 48 _ H384 m (luffa_length 4 12 m (by omega) (by omega)),
   sumOf_eq ok512 64 _ H512 m (luffa_length 5 16 m (by omega) (by omega))⟩

/-- The contract on a message cut inside a block, with a Sum in between. -/
example : (impl cfg512).run new512 [.write (List.replicate 31 7), .sum [], .write [1, 2, 3, 4, 5], .sum []] =
    [.wrote 31, .bytes (Spec.Luffa.luffa512 (List.replicate 31 7)), .wrote 5, .bytes (Spec.Luffa.luffa512 (List.replicate 31 7 ++ [1, 2, 3, 4, 5]))] :=
  Refines.cut C50_luffa_contract.2.2.2 (List.replicate 31 7) [1, 2, 3, 4, 5]

end Verif.Props
