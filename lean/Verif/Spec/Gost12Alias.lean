import Verif.Model.Gost12Alias
/-
What encoding.BinaryUnmarshaler promises ("UnmarshalBinary must copy the data if it wishes to retain the data after returning"):
the caller's array and the object have nothing to do with each other.
-/
namespace Verif.Spec.Gost12Alias
open Verif.Gost12Alias (Act)

/-- The array `arr` of the caller next to an object `d`. -/
def run : Bytes → Gost12.Digest → List Act → List Out
  | _, _, [] => []
  | arr, d, .call (.write p) :: as => .wrote p.length :: run arr (Gost12.write d p) as
  | arr, d, .call (.sum b) :: as => match Gost12.checkSum d with
    | some r => .bytes (b ++ r) :: run arr d as
    | none => [.panicked]
  | arr, d, .call .reset :: as => .done :: run arr (Gost12.reset d) as
  | arr, d, .call .size :: as => .num d.size :: run arr d as
  | arr, d, .call .blockSize :: as => .num 64 :: run arr d as
  | arr, d, .marshal :: as => .bytes (Gost12.marshal d) :: run arr d as
  | arr, d, .unmarshal lo hi :: as => match Gost12.unmarshal d ((arr.take hi).drop lo) with
    | some d' => .done :: run arr d' as
    | none => .num 1 :: run arr d as
  | arr, d, .store i v :: as => .done :: run (arr.set i v) d as
  | arr, d, .load :: as => .bytes arr :: run arr d as

end Verif.Spec.Gost12Alias
