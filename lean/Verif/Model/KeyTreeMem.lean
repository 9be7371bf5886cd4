import Verif.Model.KeyTree
/-
Model of gost/gost34112012256/tlstree.go and esptree.go with the arrays of the keys: `DeriveCached` returns the slice the tree keeps,
`Derive` a new one.  The arrays are numbered in the order they are made.
-/
namespace Verif.KeyTreeMem
open Verif.KeyTree (Params kdf)

abbrev Heap := List Bytes

/-- esptree.go:7-11; `key` is the number of an array. -/
structure ESPTree where
  keyRoot : Bytes
  isPrev : Bytes
  key : Nat
/-- esptree.go:29-50 `DeriveCached`; `none` is the panic. `KDF` returns a new array. -/
def ESPTree.deriveCached (H : Heap) (t : ESPTree) (is : Bytes) : Option (Heap × ESPTree × Nat × Bool) :=
  if is.length ≠ 1 + 2 + 2 then none
  else if t.isPrev = is then some (H, t, t.key, true)
  else
    let pass1 := kdf t.keyRoot (ascii "level1") [0#8, at8 is 0]
    let pass2 := kdf pass1 (ascii "level2") ((is.take 3).drop 1)
    let pass3 := kdf pass2 (ascii "level3") ((is.take 5).drop 3)
    some (H ++ [pass3], { t with isPrev := goCopy t.isPrev 0 is, key := H.length }, H.length, false)
/-- esptree.go:13-27 `NewESPTree` -/
def newESPTree (keyRoot : Bytes) : Option (Heap × ESPTree) :=
  let t : ESPTree := { keyRoot := keyRoot, isPrev := (zeros 5).set 0 1#8, key := 0 }
  (t.deriveCached [zeros 32] (zeros 5)).map fun r => (r.1, r.2.1)

/-- tlstree.go:48-54; `key` is the number of an array. -/
structure TLSTree where
  params : Params
  keyRoot : Bytes
  seqNumPrev : U64
  key : Nat
/-- tlstree.go:56-66 `NewTLSTree` -/
def newTLSTree (params : Params) (keyRoot : Bytes) : Heap × TLSTree :=
  ([zeros 32], { params := params, keyRoot := keyRoot, seqNumPrev := 0, key := 0 })
/-- tlstree.go:68-90 `DeriveCached`; it never panics. -/
def TLSTree.deriveCached (H : Heap) (t : TLSTree) (seqNum : U64) : Option (Heap × TLSTree × Nat × Bool) :=
  if seqNum > 0 ∧ seqNum &&& t.params.p0 = t.seqNumPrev &&& t.params.p0 ∧ seqNum &&& t.params.p1 = t.seqNumPrev &&& t.params.p1 ∧
      seqNum &&& t.params.p2 = t.seqNumPrev &&& t.params.p2 then some (H, t, t.key, true)
  else
    let pass1 := kdf t.keyRoot (ascii "level1") (be64 (seqNum &&& t.params.p0))
    let pass2 := kdf pass1 (ascii "level2") (be64 (seqNum &&& t.params.p1))
    let pass3 := kdf pass2 (ascii "level3") (be64 (seqNum &&& t.params.p2))
    some (H ++ [pass3], { t with seqNumPrev := seqNum, key := H.length }, H.length, false)

/-- What the caller does with a tree and the slices it was given: the two calls, `s[pos] = v` and reading `s`, for `s` the slice that the
`k`th call returned (calls are counted from 0). -/
inductive Act (ι : Type) where
  | cached (i : ι)
  | derive (i : ι)
  | store (k pos : Nat) (v : Byte)
  | load (k : Nat)
/-- What it sees: the bytes of a slice when it is returned or read. -/
inductive Ans where
  | bytes (b : Bytes)
  | done
  | panicked
  deriving DecidableEq

/-- A history; `rs` are the arrays of the slices returned so far.  `Derive` (tlstree.go:92-99, esptree.go:52-59) copies what
`DeriveCached` returns into a new array. -/
def run {T ι : Type} (deriveCached : Heap → T → ι → Option (Heap × T × Nat × Bool)) : Heap → T → List Nat → List (Act ι) → List Ans
  | _, _, _, [] => []
  | H, t, rs, .cached i :: as => match deriveCached H t i with
    | none => [.panicked]
    | some (H, t, r, _) => .bytes (H.getD r []) :: run deriveCached H t (rs ++ [r]) as
  | H, t, rs, .derive i :: as => match deriveCached H t i with
    | none => [.panicked]
    | some (H, t, r, _) =>
      let keyDerived := goCopy (zeros 32) 0 (H.getD r [])
      .bytes keyDerived :: run deriveCached (H ++ [keyDerived]) t (rs ++ [H.length]) as
  | H, t, rs, .store k pos v :: as => .done :: run deriveCached (match rs[k]? with | some r => H.set r ((H.getD r []).set pos v) | none => H) t rs as
  | H, t, rs, .load k :: as => .bytes (match rs[k]? with | some r => H.getD r [] | none => []) :: run deriveCached H t rs as

end Verif.KeyTreeMem
