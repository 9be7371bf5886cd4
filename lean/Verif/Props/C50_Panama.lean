import Verif.Lemmas.Panama
/-
C50, package panama.
-/
namespace Verif.Props
open Verif.Panama

/-- Every history of calls on the digest of package panama behaves like the published hash function of all the bytes written since the last Reset. -/
theorem C50_panama : Refines Panama.impl Panama.reset { H := Spec.Panama.hash, size := 32, blockSize := 32 } :=
  refines_of_sim _ _ _ Panama.Rep Panama.reset_rep
    (fun d m p h => ⟨_, rfl, write_rep d m p h⟩)
    (fun d m b h => ⟨d, by show some (d, b ++ d.checkSum) = _; rw [checkSum_eq d m h], h⟩)
    (fun _ _ _ => Panama.reset_rep) (fun _ _ _ => rfl) (fun _ _ _ => rfl)

/-- For instance a message cut in two, with a Sum in between. -/
example (a b : Bytes) : Panama.impl.run Panama.reset [.write a, .sum [], .write b, .sum []] =
    [.wrote a.length, .bytes (Spec.Panama.hash a), .wrote b.length, .bytes (Spec.Panama.hash (a ++ b))] := C50_panama _

end Verif.Props
