import Verif.Model.MD2
import Verif.Model.SM3
import Verif.Model.SHA0
import Verif.Model.HAS160
import Verif.Model.RIPEMD
import Verif.Model.Panama
import Verif.Model.RadioGatun
import Verif.Model.Belt
import Verif.Model.BLAKE256
import Verif.Model.BLAKE512
import Verif.Model.Shabal
import Verif.Model.Echo
import Verif.Model.Groestl
import Verif.Model.Haval
import Verif.Model.CubeHash
import Verif.Model.JH1
import Verif.Model.JH2
import Verif.Model.Whirlpool
import Verif.Model.Esch
import Verif.Model.K12
import Verif.Model.BLAKE3
import Verif.Model.FSB
import Verif.Model.Streebog
import Verif.Model.Skeins
import Verif.HashAPI
/-
The one-shot functions: `h := New...(); h.Write(data); sum := h.Sum(nil)` and then either `copy(out[:], sum)`
or `copy(out[:], sum[:n])` into an array of `n` bytes.  (The definitions of single functions are generated from a table.)
-/
namespace Verif.OneShot

/-- The three calls every one-shot function starts with, for instance sm3/sm3.go:14-16; a nil object (a constructor
that failed and whose error was dropped) panics. -/
def calls {σ} (I : HashImpl σ) (h : Option σ) (data : Bytes) : Option Bytes := do
  let h ← h
  let (h, _) ← I.write h data
  let (_, sum) ← I.sum h []
  some sum

/-- `copy(out[:], sum)` into an array of n bytes, for instance sm3/sm3.go:18. -/
def sumCopy {σ} (I : HashImpl σ) (n : Nat) (h : Option σ) (data : Bytes) : Option Bytes :=
  (calls I h data).map fun sum => goCopy (zeros n) 0 sum

/-- `copy(out[:], sum[:n])`, for instance belt/belt.go:23.  Simplification: `sum[:n]` panics here when n is more than the
length of `sum`; in Go it panics when n is more than the capacity. -/
def sumSlice {σ} (I : HashImpl σ) (n : Nat) (h : Option σ) (data : Bytes) : Option Bytes :=
  (calls I h data).bind fun sum => if n ≤ sum.length then some (goCopy (zeros n) 0 (sum.take n)) else none

/-- md2/md2.go:13-20 -/
def md2Sum (data : Bytes) : Option Bytes := sumCopy MD2.impl 16 (some MD2.new) data
/-- sm3/sm3.go:13-20 -/
def sm3Sum (data : Bytes) : Option Bytes := sumCopy SM3.impl 32 (some SM3.new) data
/-- sha0/sha0.go:13-20 -/
def sha0Sum (data : Bytes) : Option Bytes := sumCopy SHA0.impl 20 (some SHA0.new) data
/-- has160/has160.go:13-21 (`var h digest; h.Reset()` is what `New` does) -/
def has160Sum (data : Bytes) : Option Bytes := sumCopy HAS160.impl 20 (some HAS160.new) data
/-- ripemd/ripemd.go:12-19 -/
def ripemdSum128 (data : Bytes) : Option Bytes := sumCopy RIPEMD.impl128 16 (some RIPEMD.new128) data
/-- ripemd/ripemd.go:30-37 -/
def ripemdSum160 (data : Bytes) : Option Bytes := sumCopy RIPEMD.impl160 20 (some RIPEMD.new160) data
/-- ripemd/ripemd.go:47-54 -/
def ripemdSum256 (data : Bytes) : Option Bytes := sumCopy RIPEMD.impl256 32 (some RIPEMD.new256) data
/-- ripemd/ripemd.go:64-71 -/
def ripemdSum320 (data : Bytes) : Option Bytes := sumCopy RIPEMD.impl320 40 (some RIPEMD.new320) data
/-- panama/panama.go:13-20 -/
def panamaSum (data : Bytes) : Option Bytes := sumCopy Panama.impl 32 (some Panama.reset) data
/-- radio_gatun/radio_gatun.go:18-25 -/
def radioGatunSum32 (data : Bytes) : Option Bytes := sumCopy (RadioGatun.impl RadioGatun.pkg32) 32 (some (RadioGatun.reset RadioGatun.pkg32)) data
/-- radio_gatun/radio_gatun.go:28-35 -/
def radioGatunSum64 (data : Bytes) : Option Bytes := sumCopy (RadioGatun.impl RadioGatun.pkg64) 32 (some (RadioGatun.reset RadioGatun.pkg64)) data
/-- belt/belt.go:18-25 -/
def beltSum (data : Bytes) : Option Bytes := sumSlice Belt.impl 32 (some Belt.new) data
/-- blake256/blake256.go:18-25 -/
def blake256Sum (data : Bytes) : Option Bytes := sumCopy (BLAKE256.impl 256 BLAKE256.iv256) 32 (some (BLAKE256.new BLAKE256.iv256)) data
/-- blake256/blake256.go:42-49 -/
def blake256Sum224 (data : Bytes) : Option Bytes := sumCopy (BLAKE256.impl 224 BLAKE256.iv224) 28 (some (BLAKE256.new BLAKE256.iv224)) data
/-- blake512/blake512.go:18-25 -/
def blake512Sum (data : Bytes) : Option Bytes := sumCopy (BLAKE512.impl 64 BLAKE512.iv512) 64 (some (BLAKE512.new BLAKE512.iv512)) data
/-- blake512/blake512.go:42-49 -/
def blake512Sum384 (data : Bytes) : Option Bytes := sumCopy (BLAKE512.impl 48 BLAKE512.iv384) 48 (some (BLAKE512.new BLAKE512.iv384)) data
/-- shabal/shabal.go:21-28 -/
def shabalSum192 (data : Bytes) : Option Bytes := sumCopy Shabal.impl 24 (Shabal.newDigest 192) data
/-- shabal/shabal.go:39-46 -/
def shabalSum224 (data : Bytes) : Option Bytes := sumCopy Shabal.impl 28 (Shabal.newDigest 224) data
/-- shabal/shabal.go:57-64 -/
def shabalSum256 (data : Bytes) : Option Bytes := sumCopy Shabal.impl 32 (Shabal.newDigest 256) data
/-- shabal/shabal.go:75-82 -/
def shabalSum384 (data : Bytes) : Option Bytes := sumCopy Shabal.impl 48 (Shabal.newDigest 384) data
/-- shabal/shabal.go:93-100 -/
def shabalSum512 (data : Bytes) : Option Bytes := sumCopy Shabal.impl 64 (Shabal.newDigest 512) data
/-- echo/echo.go:26-33 -/
def echoSum224 (data : Bytes) : Option Bytes := sumSlice Echo.impl 28 (Echo.newDigest 224 []) data
/-- echo/echo.go:44-51 -/
def echoSum256 (data : Bytes) : Option Bytes := sumSlice Echo.impl 32 (Echo.newDigest 256 []) data
/-- echo/echo.go:62-69 -/
def echoSum384 (data : Bytes) : Option Bytes := sumSlice Echo.impl 48 (Echo.newDigest 384 []) data
/-- echo/echo.go:80-87 -/
def echoSum512 (data : Bytes) : Option Bytes := sumSlice Echo.impl 64 (Echo.newDigest 512 []) data
/-- groestl/groestl.go:32-39 -/
def groestlSum224 (data : Bytes) : Option Bytes := sumSlice Groestl.impl 28 (Groestl.new 224) data
/-- groestl/groestl.go:42-49 -/
def groestlSum256 (data : Bytes) : Option Bytes := sumSlice Groestl.impl 32 (Groestl.new 256) data
/-- groestl/groestl.go:52-59 -/
def groestlSum384 (data : Bytes) : Option Bytes := sumSlice Groestl.impl 48 (Groestl.new 384) data
/-- groestl/groestl.go:62-69 -/
def groestlSum512 (data : Bytes) : Option Bytes := sumSlice Groestl.impl 64 (Groestl.new 512) data
/-- haval/haval.go:26-33 -/
def havalSum128_3 (data : Bytes) : Option Bytes := sumCopy Haval.impl 16 (Haval.newDigest 128 3) data
/-- haval/haval.go:36-43 -/
def havalSum128_4 (data : Bytes) : Option Bytes := sumCopy Haval.impl 16 (Haval.newDigest 128 4) data
/-- haval/haval.go:46-53 -/
def havalSum128_5 (data : Bytes) : Option Bytes := sumCopy Haval.impl 16 (Haval.newDigest 128 5) data
/-- haval/haval.go:76-83 -/
def havalSum160_3 (data : Bytes) : Option Bytes := sumCopy Haval.impl 20 (Haval.newDigest 160 3) data
/-- haval/haval.go:86-93 -/
def havalSum160_4 (data : Bytes) : Option Bytes := sumCopy Haval.impl 20 (Haval.newDigest 160 4) data
/-- haval/haval.go:96-103 -/
def havalSum160_5 (data : Bytes) : Option Bytes := sumCopy Haval.impl 20 (Haval.newDigest 160 5) data
/-- haval/haval.go:126-133 -/
def havalSum192_3 (data : Bytes) : Option Bytes := sumCopy Haval.impl 24 (Haval.newDigest 192 3) data
/-- haval/haval.go:136-143 -/
def havalSum192_4 (data : Bytes) : Option Bytes := sumCopy Haval.impl 24 (Haval.newDigest 192 4) data
/-- haval/haval.go:146-153 -/
def havalSum192_5 (data : Bytes) : Option Bytes := sumCopy Haval.impl 24 (Haval.newDigest 192 5) data
/-- haval/haval.go:176-183 -/
def havalSum224_3 (data : Bytes) : Option Bytes := sumCopy Haval.impl 28 (Haval.newDigest 224 3) data
/-- haval/haval.go:186-193 -/
def havalSum224_4 (data : Bytes) : Option Bytes := sumCopy Haval.impl 28 (Haval.newDigest 224 4) data
/-- haval/haval.go:196-203 -/
def havalSum224_5 (data : Bytes) : Option Bytes := sumCopy Haval.impl 28 (Haval.newDigest 224 5) data
/-- haval/haval.go:226-233 -/
def havalSum256_3 (data : Bytes) : Option Bytes := sumCopy Haval.impl 32 (Haval.newDigest 256 3) data
/-- haval/haval.go:236-243 -/
def havalSum256_4 (data : Bytes) : Option Bytes := sumCopy Haval.impl 32 (Haval.newDigest 256 4) data
/-- haval/haval.go:246-253 -/
def havalSum256_5 (data : Bytes) : Option Bytes := sumCopy Haval.impl 32 (Haval.newDigest 256 5) data
/-- cubehash/cubehash.go:77-84 -/
def cubehashSumHS512 (data : Bytes) : Option Bytes := sumCopy CubeHash.impl 64 (some (CubeHash.new 512 32 16 16 32)) data
/-- cubehash/cubehash.go:87-94 -/
def cubehashSumHS384 (data : Bytes) : Option Bytes := sumCopy CubeHash.impl 48 (some (CubeHash.new 384 32 16 16 32)) data
/-- cubehash/cubehash.go:97-104 -/
def cubehashSumHS256 (data : Bytes) : Option Bytes := sumCopy CubeHash.impl 32 (some (CubeHash.new 256 32 16 16 32)) data
/-- cubehash/cubehash.go:107-114 -/
def cubehashSumHS224 (data : Bytes) : Option Bytes := sumCopy CubeHash.impl 28 (some (CubeHash.new 224 32 16 16 32)) data
/-- cubehash/cubehash.go:117-124 -/
def cubehashSumHS192 (data : Bytes) : Option Bytes := sumCopy CubeHash.impl 24 (some (CubeHash.new 192 32 16 16 32)) data
/-- cubehash/cubehash.go:127-134 -/
def cubehashSumHS160 (data : Bytes) : Option Bytes := sumCopy CubeHash.impl 20 (some (CubeHash.new 160 32 16 16 32)) data
/-- cubehash/cubehash.go:137-144 -/
def cubehashSumHS128 (data : Bytes) : Option Bytes := sumCopy CubeHash.impl 16 (some (CubeHash.new 128 32 16 16 32)) data
/-- cubehash/cubehash.go:149-156 -/
def cubehashSumSH512 (data : Bytes) : Option Bytes := sumCopy CubeHash.impl 64 (some (CubeHash.new 512 32 16 160 160)) data
/-- cubehash/cubehash.go:159-166 -/
def cubehashSumSH256 (data : Bytes) : Option Bytes := sumCopy CubeHash.impl 32 (some (CubeHash.new 256 32 16 160 160)) data
/-- cubehash/cubehash.go:169-176 -/
def cubehashSumSH224 (data : Bytes) : Option Bytes := sumCopy CubeHash.impl 28 (some (CubeHash.new 224 32 16 160 160)) data
/-- cubehash/cubehash.go:179-186 -/
def cubehashSumSH192 (data : Bytes) : Option Bytes := sumCopy CubeHash.impl 24 (some (CubeHash.new 192 32 16 160 160)) data
/-- jh2/jh2.go:13-20 -/
def jh2Sum224 (data : Bytes) : Option Bytes := sumCopy JH2.impl 28 (some (JH2.new 28)) data
/-- jh2/jh2.go:30-37 -/
def jh2Sum256 (data : Bytes) : Option Bytes := sumCopy JH2.impl 32 (some (JH2.new 32)) data
/-- jh2/jh2.go:47-54 -/
def jh2Sum384 (data : Bytes) : Option Bytes := sumCopy JH2.impl 48 (some (JH2.new 48)) data
/-- jh2/jh2.go:64-71 -/
def jh2Sum512 (data : Bytes) : Option Bytes := sumCopy JH2.impl 64 (some (JH2.new 64)) data
/-- whirlpool/whirlpool.go:13-20 -/
def whirlpoolSum (data : Bytes) : Option Bytes := sumCopy (Whirlpool.impl Whirlpool.tables) 64 (some Whirlpool.reset) data
/-- whirlpool/whirlpool.go:30-37 -/
def whirlpoolSum0 (data : Bytes) : Option Bytes := sumCopy (Whirlpool.impl Whirlpool.tables0) 64 (some Whirlpool.reset) data
/-- whirlpool/whirlpool.go:47-54 -/
def whirlpoolSum1 (data : Bytes) : Option Bytes := sumCopy (Whirlpool.impl Whirlpool.tables1) 64 (some Whirlpool.reset) data

/-- jh/jh.go:13-21 (`var h digest; h.Reset()` is what `New` does); `spare` is the memory behind the slice the caller passes. -/
def jhSum (spare : Bytes → Bytes) (data : Bytes) : Option Bytes := sumCopy (JH1.impl spare) 32 (some JH1.new) data
/-- streebog/streebog.go:25-32 -/
def streebogSum256 (data : Bytes) : Option Bytes := sumSlice Streebog.impl 32 (Streebog.new 256) data
/-- streebog/streebog.go:35-42 -/
def streebogSum512 (data : Bytes) : Option Bytes := sumSlice Streebog.impl 64 (Streebog.new 512) data
/-- skeins/skeins.go:35-42 -/
def skeinsSum224 (data : Bytes) : Option Bytes := sumCopy (Skeins.impl Skeins.code512) 28 (some Skeins.new224) data
/-- skeins/skeins.go:45-52 -/
def skeinsSum256 (data : Bytes) : Option Bytes := sumCopy (Skeins.impl Skeins.code512) 32 (some Skeins.new256) data
/-- skeins/skeins.go:55-62 -/
def skeinsSum384 (data : Bytes) : Option Bytes := sumCopy (Skeins.impl Skeins.code512) 48 (some Skeins.new384) data
/-- skeins/skeins.go:65-72 -/
def skeinsSum512 (data : Bytes) : Option Bytes := sumCopy (Skeins.impl Skeins.code512) 64 (some Skeins.new512) data
/-- esch/esch.go:21-28 -/
def eschSum256 (data : Bytes) : Option Bytes := sumSlice (Esch.impl 256) 32 (Esch.new 256) data
/-- esch/esch.go:39-46 -/
def eschSum384 (data : Bytes) : Option Bytes := sumSlice (Esch.impl 384) 48 (Esch.new 384) data
/-- k12/k12.go:12-19 -/
def k12Sum (customString data : Bytes) : Option Bytes := sumCopy K12.impl 32 (some (K12.newDigest customString 32)) data
/-- k12/k12.go:29-35 -/
def k12SumWithSize (customString data : Bytes) (hashSize : Int) : Option Bytes := calls K12.impl (some (K12.newDigest customString hashSize)) data
/-- blake3/blake3.go:57-64 -/
def blake3Sum (data : Bytes) : Option Bytes := sumCopy BLAKE3.impl 32 (some BLAKE3.New) data
/-- blake3/blake3.go:67-78; the inner `none` is the error, the outer one a panic. -/
def blake3SumWithKeyed (data key : Bytes) : Option (Option Bytes) :=
  match BLAKE3.NewWithKeyedAndSize key 32 with
  | none => some none
  | some d => (sumCopy BLAKE3.impl 32 (some d) data).map some
/-- blake3/blake3.go:81-88 -/
def blake3SumWithDeriveKey (data context : Bytes) : Option Bytes := sumCopy BLAKE3.impl 32 (BLAKE3.NewWithDeriveKeyAndSize context 32) data
/-- fsb/fsb.go:22-32; the inner `none` is the error, the outer one a panic.  `pi` is the table of the digits of π. -/
def fsbSum (pi : Nat → Byte) (data : Bytes) (hashbitlen : Int) : Option (Option Bytes) :=
  match FSB.new hashbitlen with
  | none => some none
  | some c => (calls (FSB.impl pi c) (some (FSB.reset c)) data).map some
/-- fsb/fsb.go:43-50, 61-68, 79-86, 97-104, 115-122: Sum160 … Sum512 with their array of `size` bytes. -/
def fsbSumN (pi : Nat → Byte) (hashbitlen : Int) (size : Nat) (data : Bytes) : Option Bytes :=
  (FSB.new hashbitlen).bind fun c => sumSlice (FSB.impl pi c) size (some (FSB.reset c)) data

end Verif.OneShot
