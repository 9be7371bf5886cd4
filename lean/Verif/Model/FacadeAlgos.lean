import Verif.Model.Facade
import Verif.Model.MD2
import Verif.Model.SM3
import Verif.Model.HAS160
import Verif.Model.BLAKE256
import Verif.Model.BLAKE512
import Verif.Model.Tiger
import Verif.Model.LSH
import Verif.Model.Murmur3
import Verif.Model.XXHash
import Verif.Model.Whirlpool
import Verif.Model.Gost94
import Verif.Model.Gost12
import Verif.Model.Rabin
import Verif.Model.SipHash
import Verif.Model.Echo
import Verif.Model.JH1
/-
Model of the methods of the facade that name an algorithm of this module (hash/md2.go, sm3.go, ...).
Generated by `tools/gen_facade.py` (committed beside), one definition for each Go method.

A method `X` makes a digest object, writes the data and takes its sum; `NewX` stores a new digest
object.  A constructor's result is an `Option`: `none` is a panic, or a nil object whose first use
panics.  The methods for algorithms of the Go library and of golang.org/x/crypto are in FacadeStd.lean.
-/
namespace Verif.Facade

/-- `h := pkg.New(); h.Write(this.data); this.data = h.Sum(nil); return this` -/
def digestWith {σ τ} (I : HashImpl τ) (o : Option τ) (t : Facade σ) : Option (Facade σ) := do
  let h ← o
  let (h, _) ← I.write h t.data
  let (_, d) ← I.sum h []
  some { t with data := d }

/-- `this.hash = pkg.New(); return this` where `pkg.New` panics or succeeds. -/
def newWith {τ} (o : Option τ) (t : Facade τ) : Option (Facade τ) := do
  let h ← o
  some { t with hash := some h }

/-- hash/md2.go:8-15 `MD2` -/
def mMD2 {σ} (t : Facade σ) : Option (Facade σ) := digestWith MD2.impl (some MD2.new) t
/-- hash/md2.go:18-22 `NewMD2` -/
def mNewMD2 (t : Facade MD2.Digest) : Option (Facade MD2.Digest) := newWith (some MD2.new) t

/-- hash/sm3.go:8-15 `SM3` -/
def mSM3 {σ} (t : Facade σ) : Option (Facade σ) := digestWith SM3.impl (some SM3.new) t
/-- hash/sm3.go:18-22 `NewSM3` -/
def mNewSM3 (t : Facade SM3.Digest) : Option (Facade SM3.Digest) := newWith (some SM3.new) t

/-- hash/has160.go:8-15 `HAS160` -/
def mHAS160 {σ} (t : Facade σ) : Option (Facade σ) := digestWith HAS160.impl (some HAS160.new) t
/-- hash/has160.go:18-22 `NewHAS160` -/
def mNewHAS160 (t : Facade HAS160.Digest) : Option (Facade HAS160.Digest) := newWith (some HAS160.new) t

/-- hash/blake256.go:8-15 `Blake256` -/
def mBlake256 {σ} (t : Facade σ) : Option (Facade σ) := digestWith (BLAKE256.impl 256 BLAKE256.iv256) (some (BLAKE256.new BLAKE256.iv256)) t
/-- hash/blake256.go:18-22 `NewBlake256` -/
def mNewBlake256 (t : Facade BLAKE256.Digest) : Option (Facade BLAKE256.Digest) := newWith (some (BLAKE256.new BLAKE256.iv256)) t

/-- hash/blake256.go:27-34 `Blake224` -/
def mBlake224 {σ} (t : Facade σ) : Option (Facade σ) := digestWith (BLAKE256.impl 224 BLAKE256.iv224) (some (BLAKE256.new BLAKE256.iv224)) t
/-- hash/blake256.go:37-41 `NewBlake224` -/
def mNewBlake224 (t : Facade BLAKE256.Digest) : Option (Facade BLAKE256.Digest) := newWith (some (BLAKE256.new BLAKE256.iv224)) t

/-- hash/blake512.go:8-15 `Blake512` -/
def mBlake512 {σ} (t : Facade σ) : Option (Facade σ) := digestWith (BLAKE512.impl 64 BLAKE512.iv512) (some (BLAKE512.new BLAKE512.iv512)) t
/-- hash/blake512.go:18-22 `NewBlake512` -/
def mNewBlake512 (t : Facade BLAKE512.Digest) : Option (Facade BLAKE512.Digest) := newWith (some (BLAKE512.new BLAKE512.iv512)) t

/-- hash/blake512.go:27-34 `Blake384` -/
def mBlake384 {σ} (t : Facade σ) : Option (Facade σ) := digestWith (BLAKE512.impl 48 BLAKE512.iv384) (some (BLAKE512.new BLAKE512.iv384)) t
/-- hash/blake512.go:37-41 `NewBlake384` -/
def mNewBlake384 (t : Facade BLAKE512.Digest) : Option (Facade BLAKE512.Digest) := newWith (some (BLAKE512.new BLAKE512.iv384)) t

/-- hash/tiger.go:8-15 `Tiger` -/
def mTiger {σ} (t : Facade σ) : Option (Facade σ) := digestWith (Tiger.impl 24 1) (some Tiger.new) t
/-- hash/tiger.go:18-22 `NewTiger` -/
def mNewTiger (t : Facade Tiger.Digest) : Option (Facade Tiger.Digest) := newWith (some Tiger.new) t

/-- hash/tiger.go:28-35 `Tiger2` -/
def mTiger2 {σ} (t : Facade σ) : Option (Facade σ) := digestWith (Tiger.impl 24 2) (some Tiger.new) t
/-- hash/tiger.go:38-42 `NewTiger2` -/
def mNewTiger2 (t : Facade Tiger.Digest) : Option (Facade Tiger.Digest) := newWith (some Tiger.new) t

/-- hash/lsh256.go:8-15 `LSH256` -/
def mLSH256 {σ} (t : Facade σ) : Option (Facade σ) := digestWith (LSH.impl LSH.pkg256) (some (LSH.reset LSH.pkg256 32)) t
/-- hash/lsh256.go:18-22 `NewLSH256` -/
def mNewLSH256 (t : Facade (LSH.Digest 32)) : Option (Facade (LSH.Digest 32)) := newWith (some (LSH.reset LSH.pkg256 32)) t

/-- hash/lsh256.go:27-34 `LSH256_224` -/
def mLSH256_224 {σ} (t : Facade σ) : Option (Facade σ) := digestWith (LSH.impl LSH.pkg256) (some (LSH.reset LSH.pkg256 28)) t
/-- hash/lsh256.go:37-41 `NewLSH256_224` -/
def mNewLSH256_224 (t : Facade (LSH.Digest 32)) : Option (Facade (LSH.Digest 32)) := newWith (some (LSH.reset LSH.pkg256 28)) t

/-- hash/lsh512.go:8-15 `LSH512` -/
def mLSH512 {σ} (t : Facade σ) : Option (Facade σ) := digestWith (LSH.impl LSH.pkg512) (some (LSH.reset LSH.pkg512 64)) t
/-- hash/lsh512.go:18-22 `NewLSH512` -/
def mNewLSH512 (t : Facade (LSH.Digest 64)) : Option (Facade (LSH.Digest 64)) := newWith (some (LSH.reset LSH.pkg512 64)) t

/-- hash/lsh512.go:27-34 `LSH512_384` -/
def mLSH512_384 {σ} (t : Facade σ) : Option (Facade σ) := digestWith (LSH.impl LSH.pkg512) (some (LSH.reset LSH.pkg512 48)) t
/-- hash/lsh512.go:37-41 `NewLSH512_384` -/
def mNewLSH512_384 (t : Facade (LSH.Digest 64)) : Option (Facade (LSH.Digest 64)) := newWith (some (LSH.reset LSH.pkg512 48)) t

/-- hash/lsh512.go:46-53 `LSH512_256` -/
def mLSH512_256 {σ} (t : Facade σ) : Option (Facade σ) := digestWith (LSH.impl LSH.pkg512) (some (LSH.reset LSH.pkg512 32)) t
/-- hash/lsh512.go:56-60 `NewLSH512_256` -/
def mNewLSH512_256 (t : Facade (LSH.Digest 64)) : Option (Facade (LSH.Digest 64)) := newWith (some (LSH.reset LSH.pkg512 32)) t

/-- hash/lsh512.go:65-72 `LSH512_224` -/
def mLSH512_224 {σ} (t : Facade σ) : Option (Facade σ) := digestWith (LSH.impl LSH.pkg512) (some (LSH.reset LSH.pkg512 28)) t
/-- hash/lsh512.go:75-79 `NewLSH512_224` -/
def mNewLSH512_224 (t : Facade (LSH.Digest 64)) : Option (Facade (LSH.Digest 64)) := newWith (some (LSH.reset LSH.pkg512 28)) t

/-- hash/murmur3.go:8-15 `Murmur32` -/
def mMurmur32 {σ} (t : Facade σ) : Option (Facade σ) := digestWith (Murmur3.impl32 0) (some (Murmur3.new32 0)) t
/-- hash/murmur3.go:18-22 `NewMurmur32` -/
def mNewMurmur32 (t : Facade (Murmur3.Digest U32)) : Option (Facade (Murmur3.Digest U32)) := newWith (some (Murmur3.new32 0)) t

/-- hash/murmur3.go:25-32 `Murmur32WithSeed` -/
def mMurmur32WithSeed {σ} (seed : U32) (t : Facade σ) : Option (Facade σ) := digestWith (Murmur3.impl32 seed) (some (Murmur3.new32 seed)) t
/-- hash/murmur3.go:35-39 `NewMurmur32WithSeed` -/
def mNewMurmur32WithSeed (seed : U32) (t : Facade (Murmur3.Digest U32)) : Option (Facade (Murmur3.Digest U32)) := newWith (some (Murmur3.new32 seed)) t

/-- hash/murmur3.go:44-51 `Murmur64` -/
def mMurmur64 {σ} (t : Facade σ) : Option (Facade σ) := digestWith (Murmur3.impl64 0) (some (Murmur3.new128 0)) t
/-- hash/murmur3.go:54-58 `NewMurmur64` -/
def mNewMurmur64 (t : Facade (Murmur3.Digest (U64 × U64))) : Option (Facade (Murmur3.Digest (U64 × U64))) := newWith (some (Murmur3.new128 0)) t

/-- hash/murmur3.go:61-68 `Murmur64WithSeed` -/
def mMurmur64WithSeed {σ} (seed : U32) (t : Facade σ) : Option (Facade σ) := digestWith (Murmur3.impl64 seed) (some (Murmur3.new128 seed)) t
/-- hash/murmur3.go:71-75 `NewMurmur64WithSeed` -/
def mNewMurmur64WithSeed (seed : U32) (t : Facade (Murmur3.Digest (U64 × U64))) : Option (Facade (Murmur3.Digest (U64 × U64))) := newWith (some (Murmur3.new128 seed)) t

/-- hash/murmur3.go:80-87 `Murmur128` -/
def mMurmur128 {σ} (t : Facade σ) : Option (Facade σ) := digestWith (Murmur3.impl128 0) (some (Murmur3.new128 0)) t
/-- hash/murmur3.go:90-94 `NewMurmur128` -/
def mNewMurmur128 (t : Facade (Murmur3.Digest (U64 × U64))) : Option (Facade (Murmur3.Digest (U64 × U64))) := newWith (some (Murmur3.new128 0)) t

/-- hash/murmur3.go:97-104 `Murmur128WithSeed` -/
def mMurmur128WithSeed {σ} (seed : U32) (t : Facade σ) : Option (Facade σ) := digestWith (Murmur3.impl128 seed) (some (Murmur3.new128 seed)) t
/-- hash/murmur3.go:107-111 `NewMurmur128WithSeed` -/
def mNewMurmur128WithSeed (seed : U32) (t : Facade (Murmur3.Digest (U64 × U64))) : Option (Facade (Murmur3.Digest (U64 × U64))) := newWith (some (Murmur3.new128 seed)) t

/-- hash/xxhash.go:9-16 `Xxhash32` -/
def mXxhash32 {σ} (t : Facade σ) : Option (Facade σ) := digestWith (XXHash32.impl 0) (some (XXHash32.new 0)) t
/-- hash/xxhash.go:19-23 `NewXxhash32` -/
def mNewXxhash32 (t : Facade XXHash32.Digest) : Option (Facade XXHash32.Digest) := newWith (some (XXHash32.new 0)) t

/-- hash/xxhash.go:28-35 `Xxhash64` -/
def mXxhash64 {σ} (t : Facade σ) : Option (Facade σ) := digestWith (XXHash64.impl 0) (some (XXHash64.new 0)) t
/-- hash/xxhash.go:38-42 `NewXxhash64` -/
def mNewXxhash64 (t : Facade XXHash64.Digest) : Option (Facade XXHash64.Digest) := newWith (some (XXHash64.new 0)) t

/-- hash/whirlpool.go:8-15 `Whirlpool` -/
def mWhirlpool {σ} (t : Facade σ) : Option (Facade σ) := digestWith (Whirlpool.impl Whirlpool.tables) (some Whirlpool.reset) t
/-- hash/whirlpool.go:18-22 `NewWhirlpool` -/
def mNewWhirlpool (t : Facade Whirlpool.Digest) : Option (Facade Whirlpool.Digest) := newWith (some Whirlpool.reset) t

/-- hash/gost.go:13-20 `Gost341194` -/
def mGost341194 {σ} (cipher : Bytes → Bytes → Bytes) (t : Facade σ) : Option (Facade σ) := digestWith Gost94.impl (some (Gost94.new cipher)) t
/-- hash/gost.go:23-27 `NewGost341194` -/
def mNewGost341194 (cipher : Bytes → Bytes → Bytes) (t : Facade Gost94.Digest) : Option (Facade Gost94.Digest) := newWith (some (Gost94.new cipher)) t

/-- hash/gost.go:51-58 `Gost34112012256` -/
def mGost34112012256 {σ} (t : Facade σ) : Option (Facade σ) := digestWith Gost12.impl (Gost12.new 32) t
/-- hash/gost.go:61-65 `NewGost34112012256` -/
def mNewGost34112012256 (t : Facade Gost12.Digest) : Option (Facade Gost12.Digest) := newWith (Gost12.new 32) t

/-- hash/gost.go:70-77 `Gost34112012512` -/
def mGost34112012512 {σ} (t : Facade σ) : Option (Facade σ) := digestWith Gost12.impl (Gost12.new 64) t
/-- hash/gost.go:80-84 `NewGost34112012512` -/
def mNewGost34112012512 (t : Facade Gost12.Digest) : Option (Facade Gost12.Digest) := newWith (Gost12.new 64) t

/-- hash/gost.go:32-39 `Gost34112012` -/
def mGost34112012 {σ} (size : Nat) (t : Facade σ) : Option (Facade σ) := digestWith Gost12.impl (Gost12.new size) t
/-- hash/gost.go:42-46 `NewGost34112012` -/
def mNewGost34112012 (size : Nat) (t : Facade Gost12.Digest) : Option (Facade Gost12.Digest) := newWith (Gost12.new size) t

/-- hash/rabin.go:8-15 `Rabin` -/
def mRabin {σ} (polynomial : U64) (window : Int) (t : Facade σ) : Option (Facade σ) := digestWith Rabin.impl ((Rabin.newTable polynomial window).map Rabin.new) t
/-- hash/rabin.go:18-22 `NewRabin` -/
def mNewRabin (polynomial : U64) (window : Int) (t : Facade Rabin.Digest) : Option (Facade Rabin.Digest) := newWith ((Rabin.newTable polynomial window).map Rabin.new) t

/-- hash/siphash.go:8-15 `Siphash64` -/
def mSiphash64 {σ} (k : Bytes) (t : Facade σ) : Option (Facade σ) := digestWith (SipHash.impl 0 0 8) (SipHash.new k 8) t
/-- hash/siphash.go:18-22 `NewSiphash64` (a nil object is stored when the key is refused) -/
def mNewSiphash64 (k : Bytes) (t : Facade SipHash.Digest) : Option (Facade SipHash.Digest) := some { t with hash := SipHash.new k 8 }

/-- hash/siphash.go:27-34 `Siphash128` -/
def mSiphash128 {σ} (k : Bytes) (t : Facade σ) : Option (Facade σ) := digestWith (SipHash.impl 0 0 16) (SipHash.new k 16) t
/-- hash/siphash.go:37-41 `NewSiphash128` (a nil object is stored when the key is refused) -/
def mNewSiphash128 (k : Bytes) (t : Facade SipHash.Digest) : Option (Facade SipHash.Digest) := some { t with hash := SipHash.new k 16 }

/-- hash/echo.go:8-13 `Echo224` -/
def mEcho224 {σ} (t : Facade σ) : Option (Facade σ) := do
  let u ← digestWith Echo.impl (Echo.newDigest 224 []) t
  if u.data.length < 28 then none else some { u with data := u.data.take 28 }
/-- hash/echo.go:16-20 `NewEcho224` -/
def mNewEcho224 (t : Facade Echo.Digest) : Option (Facade Echo.Digest) := newWith (Echo.newDigest 224 []) t

/-- hash/echo.go:25-30 `Echo256` -/
def mEcho256 {σ} (t : Facade σ) : Option (Facade σ) := do
  let u ← digestWith Echo.impl (Echo.newDigest 256 []) t
  if u.data.length < 32 then none else some { u with data := u.data.take 32 }
/-- hash/echo.go:33-37 `NewEcho256` -/
def mNewEcho256 (t : Facade Echo.Digest) : Option (Facade Echo.Digest) := newWith (Echo.newDigest 256 []) t

/-- hash/echo.go:42-47 `Echo384` -/
def mEcho384 {σ} (t : Facade σ) : Option (Facade σ) := do
  let u ← digestWith Echo.impl (Echo.newDigest 384 []) t
  if u.data.length < 48 then none else some { u with data := u.data.take 48 }
/-- hash/echo.go:50-54 `NewEcho384` -/
def mNewEcho384 (t : Facade Echo.Digest) : Option (Facade Echo.Digest) := newWith (Echo.newDigest 384 []) t

/-- hash/echo.go:59-64 `Echo512` -/
def mEcho512 {σ} (t : Facade σ) : Option (Facade σ) := do
  let u ← digestWith Echo.impl (Echo.newDigest 512 []) t
  if u.data.length < 64 then none else some { u with data := u.data.take 64 }
/-- hash/echo.go:67-71 `NewEcho512` -/
def mNewEcho512 (t : Facade Echo.Digest) : Option (Facade Echo.Digest) := newWith (Echo.newDigest 512 []) t

/-- hash/jh.go:8-15 `JH` -/
def mJH {σ} (spare : Bytes → Bytes) (t : Facade σ) : Option (Facade σ) := digestWith (JH1.impl spare) (some JH1.new) t
/-- hash/jh.go:18-22 `NewJH` -/
def mNewJH (spare : Bytes → Bytes) (t : Facade JH1.Digest) : Option (Facade JH1.Digest) := newWith (some JH1.new) t

/-- hash/siphash.go:46-57 `SiphashWithCDroundsAndHashSize`; the rounds are the bit patterns of the
`int32` arguments, the only error is the refused key. -/
def mSiphashWith {σ} (k : Bytes) (crounds drounds : U32) (hashSize : Int) (t : Facade σ) : Option (Facade σ) :=
  match SipHash.new k hashSize with
  | none => some { t with err := some (.other 0) }
  | some h => digestWith (SipHash.impl crounds drounds hashSize) (some h) t
/-- hash/siphash.go:60-64 `NewSiphashWithCDroundsAndHashSize` -/
def mNewSiphashWith (k : Bytes) (hashSize : Int) (t : Facade SipHash.Digest) : Option (Facade SipHash.Digest) :=
  match SipHash.new k hashSize with
  | none => some { t with hash := none, err := some (.other 0) }
  | some h => some { t with hash := some h, err := none }

end Verif.Facade
