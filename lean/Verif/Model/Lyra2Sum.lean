import Verif.Model.Lyra2
import Verif.Model.BLAKE256
import Verif.Model.Skein
import Verif.Model.Groestl
import Verif.Model.CubeHash
import Verif.Model.BMW
/-
lyra2re/sum.go and lyra2re2/sum.go. The hash function `NewLegacyKeccak256` of golang.org/x/crypto is not part of the repository and is a parameter.
-/
namespace Verif.Lyra2

/-- `h.Write(data); h.Sum(nil)` on the hash.Hash `d`; `none` is a panic or an error -/
def writeSum {σ} (I : HashImpl σ) (d : σ) (data : Bytes) : Option Bytes :=
  (I.write d data).bind fun r => (I.sum r.1 []).map (·.2)

/-- groestl/groestl.go:14-17 `New256` then 42-49 `Sum256`: the slice expression `sum[:Size256]` panics when the digest is short -/
def groestlSum256 (data : Bytes) : Option Bytes := do
  let d ← Groestl.new 256
  let sum ← writeSum Groestl.impl d data
  if sum.length < 32 then none else some (goCopy (zeros 32) 0 (sum.take 32))

/-- lyra2re/sum.go:12-34 -/
def sum1 (keccak : Bytes → Bytes) (data : Bytes) : Option Bytes := do
  let resultBlake ← writeSum (BLAKE256.impl 256 BLAKE256.iv256) (BLAKE256.new BLAKE256.iv256) data
  let resultKeccak := keccak resultBlake
  let lyra2Result ← v1 (zeros 32) resultKeccak resultKeccak 1 8 8
  let skeinResult := Skein.sumFunc Skein.iv256 32 lyra2Result []
  groestlSum256 skeinResult

/-- lyra2re2/sum.go:42-46; cubehash/cubehash.go:60-62 `NewSH256` -/
def cubehash256 (data : Bytes) : Option Bytes := writeSum CubeHash.impl (CubeHash.new 256 32 16 160 160) data

/-- lyra2re2/sum.go:13-40 -/
def sum2 (keccak : Bytes → Bytes) (data : Bytes) : Option Bytes := do
  let resultBlake ← writeSum (BLAKE256.impl 256 BLAKE256.iv256) (BLAKE256.new BLAKE256.iv256) data
  let resultkeccak := keccak resultBlake
  let resultcube ← cubehash256 resultkeccak
  let lyra2result ← v2 (zeros 32) resultcube resultcube 1 4 4
  let skeinresult := Skein.sumFunc Skein.iv256 32 lyra2result []
  let resultcube2 ← cubehash256 skeinresult
  some (BMW.sumOf BMW.cfg256 BMW.new256 32 resultcube2)

end Verif.Lyra2
