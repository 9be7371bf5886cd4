import Verif.Spec.GoValue
/-
Model of tool/deepcopy/deepcopy.go.  Simplifications: types implementing `Interface` (their own
DeepCopy, deepcopy.go:24-29) are left out; the order in which `MapKeys` returns the keys is the order
of the entries of the cell; a new cell is added to the heap after its contents have been copied, not
before (addresses are not observable); the spare capacity of a copied slice, which holds zero values,
is recorded only as the number `cap`.  `copyRecursive` is recursive over the heap graph, so the model
has fuel: `none` is running out of it (in Go: stack overflow) or an ill-formed heap.
-/
namespace Verif.DeepCopy
open Verif.GoValue

/-- The loop over the elements of a slice (deepcopy.go:73-75). -/
def copyList (f : Heap → Val → Option (Heap × Val)) : Heap → List Val → Option (Heap × List Val)
  | h, [] => some (h, [])
  | h, v :: vs => do
    let (h, w) ← f h v
    let (h, ws) ← copyList f h vs
    some (h, w :: ws)

/-- The loop over the fields of a struct (deepcopy.go:59-65): unexported fields are skipped and keep
the zero value of the new struct. -/
def copyFields (f : Heap → Val → Option (Heap × Val)) : Heap → List (Bool × Val) → Option (Heap × List (Bool × Val))
  | h, [] => some (h, [])
  | h, (false, _) :: vs => do
    let (h, ws) ← copyFields f h vs
    some (h, (false, .zero) :: ws)
  | h, (true, v) :: vs => do
    let (h, w) ← f h v
    let (h, ws) ← copyFields f h vs
    some (h, (true, w) :: ws)

/-- `Copy(key.Interface())` (deepcopy.go:88): the unexported fields of a struct key become zero. -/
def copyKey : Key → Key
  | .scalar n => .scalar n
  | .struct fs => .struct (fs.map fun f => if f.1 then f else (false, 0))

/-- `cpy.SetMapIndex` (deepcopy.go:89). -/
def setIndex : List (Key × Val) → Key → Val → List (Key × Val)
  | [], k, v => [(k, v)]
  | (k', v') :: es, k, v => if k' = k then (k, v) :: es else (k', v') :: setIndex es k v

/-- The loop over the keys of a map (deepcopy.go:84-90). -/
def copyEntries (f : Heap → Val → Option (Heap × Val)) :
    Heap → List (Key × Val) → List (Key × Val) → Option (Heap × List (Key × Val))
  | h, [], acc => some (h, acc)
  | h, (k, v) :: es, acc => do
    let (h, w) ← f h v
    copyEntries f h es (setIndex acc (copyKey k) w)

/-- `copyRecursive` (deepcopy.go:23-95): the heap after the copy and the copy. -/
def copyRec : Nat → Heap → Val → Option (Heap × Val)
  | 0, _, _ => none
  | n + 1, h, v => match v with
    /- default: cpy.Set(original), deepcopy.go:92-93; time.Time, deepcopy.go:53-57 -/
    | .scalar x => some (h, .scalar x)
    | .zero => some (h, .zero)
    /- deepcopy.go:33-40 -/
    | .ptr none => some (h, .ptr none)
    | .ptr (some a) => match h[a]? with
      | some (.one w) => do
        let (h, w) ← copyRec n h w
        some (h ++ [.one w], .ptr (some h.length))
      | _ => none
    /- deepcopy.go:42-50 -/
    | .iface none => some (h, .iface none)
    | .iface (some w) => do
      let (h, w) ← copyRec n h w
      some (h, .iface (some w))
    /- deepcopy.go:52-65 -/
    | .struct fs => do
      let (h, fs) ← copyFields (copyRec n) h fs
      some (h, .struct fs)
    /- deepcopy.go:67-75 -/
    | .slice none => some (h, .slice none)
    | .slice (some (a, off, len, cap)) => match h[a]? with
      | some (.arr xs) => do
        let (h, ws) ← copyList (copyRec n) h ((xs.drop off).take len)
        some (h ++ [.arr ws], .slice (some (h.length, 0, len, cap)))
      | _ => none
    /- deepcopy.go:77-90 -/
    | .map none => some (h, .map none)
    | .map (some a) => match h[a]? with
      | some (.tbl es) => do
        let (h, es) ← copyEntries (copyRec n) h es []
        some (h ++ [.tbl es], .map (some h.length))
      | _ => none
    /- arrays fall in the default case, cpy.Set(original): deepcopy.go:92-93 -/
    | .array xs => some (h, .array xs)

end Verif.DeepCopy
