import Verif.Model.KeyTreeMem
/-
What a caller expects of a key tree: every call returns the key of the index asked for, in a slice that belongs to the caller alone.
-/
namespace Verif.Spec.KeyTreeMem
open Verif.KeyTreeMem (Act Ans)

/-- `vs` are the slices returned so far. -/
def run {ι : Type} (keyOf : ι → Bytes) (valid : ι → Bool) : List Bytes → List (Act ι) → List Ans
  | _, [] => []
  | vs, .cached i :: as => if valid i then .bytes (keyOf i) :: run keyOf valid (vs ++ [keyOf i]) as else [.panicked]
  | vs, .derive i :: as => if valid i then .bytes (keyOf i) :: run keyOf valid (vs ++ [keyOf i]) as else [.panicked]
  | vs, .store k pos v :: as => .done :: run keyOf valid (vs.set k ((vs.getD k []).set pos v)) as
  | vs, .load k :: as => .bytes (vs.getD k []) :: run keyOf valid vs as

/-- The caller stores only into slices that `Derive` returned; `ks` says of the calls so far which were `Derive`. -/
def StoresDerived {ι : Type} : List Bool → List (Act ι) → Prop
  | _, [] => True
  | ks, .cached _ :: as => StoresDerived (ks ++ [false]) as
  | ks, .derive _ :: as => StoresDerived (ks ++ [true]) as
  | ks, .store k _ _ :: as => ks[k]? = some true ∧ StoresDerived ks as
  | ks, .load _ :: as => StoresDerived ks as

end Verif.Spec.KeyTreeMem
