import Verif.Model.OneShot
import Verif.Model.Skein
import Verif.Model.Shavite
import Verif.Model.Bash
import Verif.Model.XXHash
/-
One-shot functions not in OneShot: skein256, skein1024, the general Sum of the skein packages, shavite, bash, xxhash.
-/
namespace Verif.OneShot
open Verif.Skein Verif.Threefish

/-- What the Sum functions of skein256 and skein1024 start with: `new(hashFunc)`, initialize with the key, Write, finalizeHash
(for instance skein/skein256/skein.go:16-21). -/
def skeinStart (k : Code) (size : Nat) (msg key : Bytes) : HashFunc := finalizeHash k (write k (initialise k size { key := key }) msg)

/-- skein/skein256/skein.go:13-30 `Sum512` -/
def skein256Sum512 (msg key : Bytes) : Bytes :=
  let s := skeinStart code256 64 msg key
  goCopy (goCopy (zeros 64) 0 (output code256 s 0)) 32 (output code256 s 1)
/-- skein/skein256/skein.go:34-51 `Sum384` -/
def skein256Sum384 (msg key : Bytes) : Bytes :=
  let s := skeinStart code256 48 msg key
  goCopy (goCopy (zeros 48) 0 (output code256 s 0)) 32 ((output code256 s 1).take 16)
/-- skein/skein256/skein.go:55-69 `Sum256` -/
def skein256Sum256 (msg key : Bytes) : Bytes :=
  let s := skeinStart code256 32 msg key
  goCopy (zeros 32) 0 (output code256 s 0)
/-- skein/skein256/skein.go:73-86 `Sum160` -/
def skein256Sum160 (msg key : Bytes) : Bytes :=
  let s := skeinStart code256 20 msg key
  goCopy (zeros 20) 0 ((output code256 s 0).take 20)

/-- skein/skein1024/skein.go:13-27 `Sum512` -/
def skein1024Sum512 (msg key : Bytes) : Bytes :=
  let s := skeinStart code1024 64 msg key
  goCopy (zeros 64) 0 ((output code1024 s 0).take 64)
/-- skein/skein1024/skein.go:31-45 `Sum384` -/
def skein1024Sum384 (msg key : Bytes) : Bytes :=
  let s := skeinStart code1024 48 msg key
  goCopy (zeros 48) 0 ((output code1024 s 0).take 48)
/-- skein/skein1024/skein.go:49-63 `Sum256` -/
def skein1024Sum256 (msg key : Bytes) : Bytes :=
  let s := skeinStart code1024 32 msg key
  goCopy (zeros 32) 0 ((output code1024 s 0).take 32)
/-- skein/skein1024/skein.go:67-81 `Sum160` -/
def skein1024Sum160 (msg key : Bytes) : Bytes :=
  let s := skeinStart code1024 20 msg key
  goCopy (zeros 20) 0 ((output code1024 s 0).take 20)

/-- skein/skein.go:156-160, skein/skein256/skein.go:90-94, skein/skein1024/skein.go:85-89 `Sum`, with the cipher of the package; a size below 1 panics -/
def skeinSum (k : Code) (msg : Bytes) (hashsize : Nat) (conf : Config) : Option Bytes := calls (Skein.impl k) (Skein.new k hashsize conf) msg

/-- shavite/shavite.go:28-35 -/
def shaviteSum224 (data : Bytes) : Option Bytes := sumCopy Shavite.D256.impl 28 (some Shavite.D256.New224) data
/-- shavite/shavite.go:38-45 -/
def shaviteSum256 (data : Bytes) : Option Bytes := sumCopy Shavite.D256.impl 32 (some Shavite.D256.New256) data
/-- shavite/shavite.go:48-55 -/
def shaviteSum384 (data : Bytes) : Option Bytes := sumCopy Shavite.D512.impl 48 (some Shavite.D512.New384) data
/-- shavite/shavite.go:58-65 -/
def shaviteSum512 (data : Bytes) : Option Bytes := sumCopy Shavite.D512.impl 64 (some Shavite.D512.New512) data

/-- bash/bash.go:43-50 (and New224, 19-22) -/
def bashSum224 (data : Bytes) : Option Bytes := sumSlice Bash.impl 28 (Bash.newDigest 224) data
/-- bash/bash.go:53-60 -/
def bashSum256 (data : Bytes) : Option Bytes := sumSlice Bash.impl 32 (Bash.newDigest 256) data
/-- bash/bash.go:63-70 -/
def bashSum384 (data : Bytes) : Option Bytes := sumSlice Bash.impl 48 (Bash.newDigest 384) data
/-- bash/bash.go:73-80 -/
def bashSum512 (data : Bytes) : Option Bytes := sumSlice Bash.impl 64 (Bash.newDigest 512) data

/-- xxhash/xxhash32/xxhash32.go:16-21 `Sum`, 24-29 `SumWithSeed`, 32-39 `Checksum`, `ChecksumWithSeed` -/
def xxh32SumWithSeed (input : Bytes) (seed : U32) : Bytes := be32 (XXHash32.checksum input seed)
def xxh32Sum (input : Bytes) : Bytes := be32 (XXHash32.checksum input 0)
def xxh32Checksum (input : Bytes) : U32 := XXHash32.checksum input 0
def xxh32ChecksumWithSeed (input : Bytes) (seed : U32) : U32 := XXHash32.checksum input seed
/-- xxhash/xxhash64/xxhash64.go:16-21 `Sum`, 24-29 `SumWithSeed`, 32-39 `Checksum`, `ChecksumWithSeed` -/
def xxh64SumWithSeed (input : Bytes) (seed : U64) : Bytes := be64 (XXHash64.checksum input seed)
def xxh64Sum (input : Bytes) : Bytes := be64 (XXHash64.checksum input 0)
def xxh64Checksum (input : Bytes) : U64 := XXHash64.checksum input 0
def xxh64ChecksumWithSeed (input : Bytes) (seed : U64) : U64 := XXHash64.checksum input seed

end Verif.OneShot
