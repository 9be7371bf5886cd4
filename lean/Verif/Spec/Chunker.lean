import Verif.Spec.Rabin
/-
Content-defined chunking, as the documentation of rabin.Chunker describes it.
-/
namespace Verif.Spec.Chunker

/-- The parameters: hashing polynomial, window, minimum and maximum chunk length, hash mask. -/
structure Params where
  p : Nat
  window : Nat
  min : Nat
  max : Nat
  mask : U64

/-- The hash of the `window` bytes before position `n` of `D` has all the bits of the mask set. -/
def Boundary (P : Params) (D : Bytes) (n : Nat) : Prop :=
  Rabin.fingerprint P.p ((D.drop (n - P.window)).take P.window) &&& P.mask = P.mask

/-- The first chunk of `D` has length `n`: `n` is the first place, not before `min`, where there is a
boundary, or `max` is reached; or else the end of the data. -/
structure IsCut (P : Params) (D : Bytes) (n : Nat) : Prop where
  le : n ≤ D.length
  stop : n = D.length ∨ (P.min ≤ n ∧ (n = P.max ∨ Boundary P D n))
  first : ∀ k, P.min ≤ k → k < n → k ≠ P.max ∧ ¬ Boundary P D k

/-- The lengths of the chunks of `D`. -/
inductive Chunks (P : Params) : Bytes → List Nat → Prop
  | nil : Chunks P [] []
  | cons {D n l} : D ≠ [] → IsCut P D n → Chunks P (D.drop n) l → Chunks P D (n :: l)

end Verif.Spec.Chunker
