import Verif.Model.Gost12
/-
Model of gost/gost34112012256 (kdf.go, tlstree.go, esptree.go). `crypto/hmac` is the standard library's; it is modelled by
its definition over the model of the hash. Slices are values: the model has the caller not write into the slice returned by
`DeriveCached`, which is the tree's own.
-/
namespace Verif.KeyTree

/-- gost/gost34112012256/hash.go: `New`, one `Write`, `Sum(nil)`. -/
def H (m : Bytes) : Bytes := (((Gost12.new 32).bind fun d => Gost12.checkSum (Gost12.write d m))).getD []
/-- crypto/hmac (standard library): `hmac.New(New, key)`, writes adding up to `msg`, `Sum(nil)`. -/
def hmac (key msg : Bytes) : Bytes :=
  let key := if key.length > 64 then H key else key
  let pad := goCopy (zeros 64) 0 key
  let ipad := pad.map (· ^^^ 0x36#8)
  let opad := pad.map (· ^^^ 0x5c#8)
  H (opad ++ H (ipad ++ msg))
/-- gost/gost34112012256/kdf.go:8-36 `KDF` -/
def kdf (key label seed : Bytes) : Bytes :=
  hmac key ([0x01#8] ++ label ++ [0x00#8] ++ seed ++ [0x01#8] ++ [0x00#8])

/-- tlstree.go:46 `TLSTreeParams` -/
structure Params where
  p0 : U64
  p1 : U64
  p2 : U64
/-- tlstree.go:8-12 -/
def magmaCTROMAC : Params := ⟨0xFFFFFFC000000000, 0xFFFFFFFFFE000000, 0xFFFFFFFFFFFFF000⟩
/-- tlstree.go:14-18 -/
def kuznyechikCTROMAC : Params := ⟨0xFFFFFFFF00000000, 0xFFFFFFFFFFF80000, 0xFFFFFFFFFFFFFFC0⟩
/-- tlstree.go:20-24 -/
def kuznyechikMGML : Params := ⟨0xF800000000000000, 0xFFFFFFF000000000, 0xFFFFFFFFFFFFE000⟩
/-- tlstree.go:26-30 -/
def magmaMGML : Params := ⟨0xFFE0000000000000, 0xFFFFFFFFC0000000, 0xFFFFFFFFFFFFFF80⟩
/-- tlstree.go:32-36 -/
def kuznyechikMGMS : Params := ⟨0xFFFFFFFFE0000000, 0xFFFFFFFFFFFF0000, 0xFFFFFFFFFFFFFFF8⟩
/-- tlstree.go:38-42 -/
def magmaMGMS : Params := ⟨0xFFFFFFFFFC000000, 0xFFFFFFFFFFFFE000, 0xFFFFFFFFFFFFFFFF⟩

/-- tlstree.go:48-54, without the scratch `seq`. -/
structure TLSTree where
  params : Params
  keyRoot : Bytes
  seqNumPrev : U64
  key : Bytes
/-- tlstree.go:56-66 `NewTLSTree` -/
def newTLSTree (params : Params) (keyRoot : Bytes) : TLSTree :=
  { params := params, keyRoot := keyRoot, seqNumPrev := 0, key := zeros 32 }
/-- tlstree.go:68-90 `DeriveCached` -/
def TLSTree.deriveCached (t : TLSTree) (seqNum : U64) : TLSTree × Bytes × Bool :=
  if seqNum > 0 ∧ seqNum &&& t.params.p0 = t.seqNumPrev &&& t.params.p0 ∧ seqNum &&& t.params.p1 = t.seqNumPrev &&& t.params.p1 ∧
      seqNum &&& t.params.p2 = t.seqNumPrev &&& t.params.p2 then (t, t.key, true)
  else
    let pass1 := kdf t.keyRoot (ascii "level1") (be64 (seqNum &&& t.params.p0))
    let pass2 := kdf pass1 (ascii "level2") (be64 (seqNum &&& t.params.p1))
    let pass3 := kdf pass2 (ascii "level3") (be64 (seqNum &&& t.params.p2))
    ({ t with seqNumPrev := seqNum, key := pass3 }, pass3, false)
/-- tlstree.go:92-99 `Derive` -/
def TLSTree.derive (t : TLSTree) (seqNum : U64) : TLSTree × Bytes :=
  let (t, key, _) := t.deriveCached seqNum
  (t, goCopy (zeros 32) 0 key)

/-- esptree.go:7-11 -/
structure ESPTree where
  keyRoot : Bytes
  isPrev : Bytes
  key : Bytes
/-- esptree.go:29-50 `DeriveCached`; `none` is the panic. -/
def ESPTree.deriveCached (t : ESPTree) (is : Bytes) : Option (ESPTree × Bytes × Bool) :=
  if is.length ≠ 1 + 2 + 2 then none
  else if t.isPrev = is then some (t, t.key, true)
  else
    let pass1 := kdf t.keyRoot (ascii "level1") [0#8, at8 is 0]
    let pass2 := kdf pass1 (ascii "level2") ((is.take 3).drop 1)
    let pass3 := kdf pass2 (ascii "level3") ((is.take 5).drop 3)
    some ({ t with isPrev := goCopy t.isPrev 0 is, key := pass3 }, pass3, false)
/-- esptree.go:13-27 `NewESPTree` -/
def newESPTree (keyRoot : Bytes) : Option ESPTree :=
  let t : ESPTree := { keyRoot := keyRoot, isPrev := (zeros 5).set 0 1#8, key := zeros 32 }
  (t.deriveCached (zeros 5)).map (·.1)
/-- esptree.go:52-59 `Derive` -/
def ESPTree.derive (t : ESPTree) (is : Bytes) : Option (ESPTree × Bytes) :=
  (t.deriveCached is).map fun (t, key, _) => (t, goCopy (zeros 32) 0 key)

end Verif.KeyTree
