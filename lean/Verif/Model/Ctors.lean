import Verif.Model.CubeHash
import Verif.Model.Haval
import Verif.Model.Shabal
import Verif.Model.Echo
import Verif.Model.Groestl
import Verif.Model.Tiger
import Verif.Model.MD6
import Verif.Model.SipHash
import Verif.Model.Chaskey
import Verif.Model.FSB
import Verif.Model.Skein512
import Verif.HashAPI
/-
The exported constructors that name a variant and pass its parameters on (cubehash, haval, shabal, echo, groestl, tiger, md6, siphash, chaskey, fsb,
skein512).  (The definitions of single constructors are generated from a table.)
-/
namespace Verif.Ctors

/-- A hash.Hash: a state together with its methods. -/
structure Obj where
  σ : Type
  I : HashImpl σ
  d : σ

/-- `h, _ := newDigest(...); return h`, for instance haval/haval.go:8-11; `none` is the nil pointer, all whose methods panic. -/
def dropError {σ} (I : HashImpl σ) (h : Option σ) : Option Obj := h.map fun d => ⟨σ, I, d⟩

/-- cubehash/cubehash.go:13-15, 8-10 -/
def cubehashNewHS512x : Option Obj := some ⟨_, CubeHash.impl, CubeHash.new 512 1 16 16 32⟩
/-- cubehash/cubehash.go:18-20, 8-10 -/
def cubehashNewHS512 : Option Obj := some ⟨_, CubeHash.impl, CubeHash.new 512 32 16 16 32⟩
/-- cubehash/cubehash.go:23-25, 8-10 -/
def cubehashNewHS384 : Option Obj := some ⟨_, CubeHash.impl, CubeHash.new 384 32 16 16 32⟩
/-- cubehash/cubehash.go:28-30, 8-10 -/
def cubehashNewHS256 : Option Obj := some ⟨_, CubeHash.impl, CubeHash.new 256 32 16 16 32⟩
/-- cubehash/cubehash.go:33-35, 8-10 -/
def cubehashNewHS224 : Option Obj := some ⟨_, CubeHash.impl, CubeHash.new 224 32 16 16 32⟩
/-- cubehash/cubehash.go:38-40, 8-10 -/
def cubehashNewHS192 : Option Obj := some ⟨_, CubeHash.impl, CubeHash.new 192 32 16 16 32⟩
/-- cubehash/cubehash.go:43-45, 8-10 -/
def cubehashNewHS160 : Option Obj := some ⟨_, CubeHash.impl, CubeHash.new 160 32 16 16 32⟩
/-- cubehash/cubehash.go:48-50, 8-10 -/
def cubehashNewHS128 : Option Obj := some ⟨_, CubeHash.impl, CubeHash.new 128 32 16 16 32⟩
/-- cubehash/cubehash.go:55-57, 8-10 -/
def cubehashNewSH512 : Option Obj := some ⟨_, CubeHash.impl, CubeHash.new 512 32 16 160 160⟩
/-- cubehash/cubehash.go:60-62, 8-10 -/
def cubehashNewSH256 : Option Obj := some ⟨_, CubeHash.impl, CubeHash.new 256 32 16 160 160⟩
/-- cubehash/cubehash.go:65-67, 8-10 -/
def cubehashNewSH224 : Option Obj := some ⟨_, CubeHash.impl, CubeHash.new 224 32 16 160 160⟩
/-- cubehash/cubehash.go:70-72, 8-10 -/
def cubehashNewSH192 : Option Obj := some ⟨_, CubeHash.impl, CubeHash.new 192 32 16 160 160⟩
/-- haval/haval.go:8-11 -/
def havalNew128_3 : Option Obj := dropError Haval.impl (Haval.newDigest 128 3)
/-- haval/haval.go:14-17 -/
def havalNew128_4 : Option Obj := dropError Haval.impl (Haval.newDigest 128 4)
/-- haval/haval.go:20-23 -/
def havalNew128_5 : Option Obj := dropError Haval.impl (Haval.newDigest 128 5)
/-- haval/haval.go:58-61 -/
def havalNew160_3 : Option Obj := dropError Haval.impl (Haval.newDigest 160 3)
/-- haval/haval.go:64-67 -/
def havalNew160_4 : Option Obj := dropError Haval.impl (Haval.newDigest 160 4)
/-- haval/haval.go:70-73 -/
def havalNew160_5 : Option Obj := dropError Haval.impl (Haval.newDigest 160 5)
/-- haval/haval.go:108-111 -/
def havalNew192_3 : Option Obj := dropError Haval.impl (Haval.newDigest 192 3)
/-- haval/haval.go:114-117 -/
def havalNew192_4 : Option Obj := dropError Haval.impl (Haval.newDigest 192 4)
/-- haval/haval.go:120-123 -/
def havalNew192_5 : Option Obj := dropError Haval.impl (Haval.newDigest 192 5)
/-- haval/haval.go:158-161 -/
def havalNew224_3 : Option Obj := dropError Haval.impl (Haval.newDigest 224 3)
/-- haval/haval.go:164-167 -/
def havalNew224_4 : Option Obj := dropError Haval.impl (Haval.newDigest 224 4)
/-- haval/haval.go:170-173 -/
def havalNew224_5 : Option Obj := dropError Haval.impl (Haval.newDigest 224 5)
/-- haval/haval.go:208-211 -/
def havalNew256_3 : Option Obj := dropError Haval.impl (Haval.newDigest 256 3)
/-- haval/haval.go:214-217 -/
def havalNew256_4 : Option Obj := dropError Haval.impl (Haval.newDigest 256 4)
/-- haval/haval.go:220-223 -/
def havalNew256_5 : Option Obj := dropError Haval.impl (Haval.newDigest 256 5)
/-- shabal/shabal.go:15-18 -/
def shabalNew192 : Option Obj := dropError Shabal.impl (Shabal.newDigest 192)
/-- shabal/shabal.go:33-36 -/
def shabalNew224 : Option Obj := dropError Shabal.impl (Shabal.newDigest 224)
/-- shabal/shabal.go:51-54 -/
def shabalNew256 : Option Obj := dropError Shabal.impl (Shabal.newDigest 256)
/-- shabal/shabal.go:69-72 -/
def shabalNew384 : Option Obj := dropError Shabal.impl (Shabal.newDigest 384)
/-- shabal/shabal.go:87-90 -/
def shabalNew512 : Option Obj := dropError Shabal.impl (Shabal.newDigest 512)
/-- echo/echo.go:20-23, 8-15 -/
def echoNew224 : Option Obj := dropError Echo.impl (Echo.newDigest 224 [])
/-- echo/echo.go:38-41, 8-15 -/
def echoNew256 : Option Obj := dropError Echo.impl (Echo.newDigest 256 [])
/-- echo/echo.go:56-59, 8-15 -/
def echoNew384 : Option Obj := dropError Echo.impl (Echo.newDigest 384 [])
/-- echo/echo.go:74-77, 8-15 -/
def echoNew512 : Option Obj := dropError Echo.impl (Echo.newDigest 512 [])
/-- groestl/groestl.go:8-11 -/
def groestlNew224 : Option Obj := dropError Groestl.impl (Groestl.new 224)
/-- groestl/groestl.go:14-17 -/
def groestlNew256 : Option Obj := dropError Groestl.impl (Groestl.new 256)
/-- groestl/groestl.go:20-23 -/
def groestlNew384 : Option Obj := dropError Groestl.impl (Groestl.new 384)
/-- groestl/groestl.go:26-29 -/
def groestlNew512 : Option Obj := dropError Groestl.impl (Groestl.new 512)
/-- tiger/tiger.go:8-10 -/
def tigerNew : Option Obj := some ⟨_, Tiger.impl 24 1, Tiger.new⟩
/-- tiger/tiger.go:13-15 -/
def tigerNew2 : Option Obj := some ⟨_, Tiger.impl 24 2, Tiger.new⟩
/-- tiger/tiger.go:20-22 -/
def tigerNew160 : Option Obj := some ⟨_, Tiger.impl 20 1, Tiger.new⟩
/-- tiger/tiger.go:25-27 -/
def tigerNew2_160 : Option Obj := some ⟨_, Tiger.impl 20 2, Tiger.new⟩
/-- tiger/tiger.go:32-34 -/
def tigerNew128 : Option Obj := some ⟨_, Tiger.impl 16 1, Tiger.new⟩
/-- tiger/tiger.go:37-39 -/
def tigerNew2_128 : Option Obj := some ⟨_, Tiger.impl 16 2, Tiger.new⟩
/-- md6/md6.go:8-10, 28-30 -/
def md6New224 : Option Obj := some ⟨_, MD6.impl, MD6.newDigest 224 [] 64⟩
/-- md6/md6.go:13-15, 28-30 -/
def md6New256 : Option Obj := some ⟨_, MD6.impl, MD6.newDigest 256 [] 64⟩
/-- md6/md6.go:18-20, 28-30 -/
def md6New384 : Option Obj := some ⟨_, MD6.impl, MD6.newDigest 384 [] 64⟩
/-- md6/md6.go:23-25, 28-30 -/
def md6New512 : Option Obj := some ⟨_, MD6.impl, MD6.newDigest 512 [] 64⟩
/-- md6/md6.go:33-35 -/
def md6NewWithKey (size : Nat) (key : Bytes) : Option Obj := some ⟨_, MD6.impl, MD6.newDigest size key 64⟩
/-- siphash/siphash.go:8-11, 32-34 -/
def siphashNew (k : Bytes) : Option Obj := dropError (SipHash.impl 0 0 0) (SipHash.new k 0)
/-- siphash/siphash.go:14-17, 32-34 -/
def siphashNew64 (k : Bytes) : Option Obj := dropError (SipHash.impl 0 0 8) (SipHash.new k 8)
/-- siphash/siphash.go:20-23, 32-34 -/
def siphashNew128 (k : Bytes) : Option Obj := dropError (SipHash.impl 0 0 16) (SipHash.new k 16)
/-- siphash/siphash.go:26-29, 32-34 -/
def siphashNewWithHashSize (k : Bytes) (hashSize : Int) : Option Obj := dropError (SipHash.impl 0 0 hashSize) (SipHash.new k hashSize)
/-- chaskey/chaskey.go:18-20; `none` is also the error -/
def chaskeyNew (key : Bytes) : Option Obj := dropError Chaskey.impl (Chaskey.new key 8)
/-- chaskey/chaskey.go:23-25; `none` is also the error -/
def chaskeyNew12 (key : Bytes) : Option Obj := dropError Chaskey.impl (Chaskey.new key 12)
/-- fsb/fsb.go:37-40, 17-19 -/
def fsbNew160 (pi : Nat → Byte) : Option Obj := (FSB.new 160).map fun c => ⟨_, FSB.impl pi c, FSB.reset c⟩
/-- fsb/fsb.go:55-58, 17-19 -/
def fsbNew224 (pi : Nat → Byte) : Option Obj := (FSB.new 224).map fun c => ⟨_, FSB.impl pi c, FSB.reset c⟩
/-- fsb/fsb.go:73-76, 17-19 -/
def fsbNew256 (pi : Nat → Byte) : Option Obj := (FSB.new 256).map fun c => ⟨_, FSB.impl pi c, FSB.reset c⟩
/-- fsb/fsb.go:91-94, 17-19 -/
def fsbNew384 (pi : Nat → Byte) : Option Obj := (FSB.new 384).map fun c => ⟨_, FSB.impl pi c, FSB.reset c⟩
/-- fsb/fsb.go:109-112, 17-19 -/
def fsbNew512 (pi : Nat → Byte) : Option Obj := (FSB.new 512).map fun c => ⟨_, FSB.impl pi c, FSB.reset c⟩
/-- skein512/skein.go:17-19, 12-14 -/
def skein512NewHash224 : Option Obj := some ⟨_, Skein512.impl, Skein512.new 28 {}⟩
/-- skein512/skein.go:22-24, 12-14 -/
def skein512NewHash256 : Option Obj := some ⟨_, Skein512.impl, Skein512.new 32 {}⟩
/-- skein512/skein.go:27-29, 12-14 -/
def skein512NewHash384 : Option Obj := some ⟨_, Skein512.impl, Skein512.new 48 {}⟩
/-- skein512/skein.go:32-34, 12-14 -/
def skein512NewHash512 : Option Obj := some ⟨_, Skein512.impl, Skein512.new 64 {}⟩

end Verif.Ctors
