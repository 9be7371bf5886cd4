import Verif.Model.K12
/-
Model of package k12 with the storage of the customisation string: the object keeps the caller's slice (k12/digest.go:27), and
`clone` (k12/digest.go:145-154) copies it onto itself.
-/
namespace Verif.K12Custom

/-- The caller's array and the object; the field `customString` of `d` is a reference to `arr`. -/
structure World where
  arr : Bytes
  d : K12.Digest

/-- The object as its methods see it. -/
def World.view (w : World) : K12.Digest := { w.d with customString := w.arr }

/-- k12/k12.go:29-31 `NewWithSize(arr, hs)`, k12/digest.go:25-35 -/
def new (arr : Bytes) (hs : Int) : World := ⟨arr, K12.newDigest arr hs⟩

/-- Calls of the hash interface, and `arr[i] = v` by the caller. -/
inductive Act where
  | call (o : Op)
  | store (i : Nat) (v : Byte)

/-- k12/digest.go:38-112: a history. -/
def run : World → List Act → List Out
  | _, [] => []
  | w, .call (.write p) :: as => let r := w.view.write p; .wrote r.2 :: run { w with d := r.1 } as
  | w, .call (.sum b) :: as => match w.view.sum b with
    | some r => .bytes r :: run w as
    | none => [.panicked]
  | w, .call .reset :: as => .done :: run { w with d := w.view.reset } as
  | w, .call .size :: as => .num w.d.hashSize.toNat :: run w as
  | w, .call .blockSize :: as => .num 8192 :: run w as
  | w, .store i v :: as => .done :: run { w with arr := w.arr.set i v } as

end Verif.K12Custom
