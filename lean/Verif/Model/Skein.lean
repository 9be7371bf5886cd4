import Verif.HashAPI
import Verif.Model.Threefish
/-
Model of skein (skein/skein.go, skein/skein512.go, skein/constants.go) and of its siblings
skein/skein256 and skein/skein1024, whose hashFunc is the same code with another block size.
-/
namespace Verif.Skein
open Verif.Threefish

/-- constants.go:33-36 -/
def firstBlock : U64 := 1#64 <<< 62
/-- constants.go:33-36 -/
def finalBlock : U64 := 1#64 <<< 63

/-- `hVal` and `tweak`.  `hVal[n]` and `tweak[2]` are recomputed by every `UBI*` before they are
read, so they are not kept here. -/
structure Chain where
  hVal : List U64
  t0 : U64
  t1 : U64

/-- `IncrementTweak` (threefish/threefish.go:52-59) -/
def incrementTweak (c : Chain) (ctr : U64) : Chain :=
  let t0 := c.t0 + ctr
  if t0 < c.t0 then { c with t0 := t0, t1 := (c.t1 + 1) &&& 0x00000000FFFFFFFF } else { c with t0 := t0 }

/-- `UBI256/512/1024` (threefish512_ref.go:308-325 and siblings): the new `block` and `hVal`. -/
def ubi (k : Code) (block : List U64) (c : Chain) : List U64 × Chain :=
  let hv := c.hVal ++ [c.hVal.foldl (· ^^^ ·) C240]
  let b := encryptWords k block hv [c.t0, c.t1, c.t0 ^^^ c.t1]
  (b, { c with hVal := List.zipWith (· ^^^ ·) b block })

/-- `update` (skein512.go:94-100) -/
def update (k : Code) (c : Chain) (block : List U64) : Chain :=
  let c := incrementTweak c (BitVec.ofNat 64 (8 * k.n))
  let c := (ubi k block c).2
  { c with t1 := c.t1 &&& ~~~firstBlock }

/-- skein512.go:5-12 -/
structure HashFunc where
  hashsize : Nat
  c : Chain
  hValCpy : List U64
  block : Bytes
  off : Nat
  hasMsg : Bool

/-- `for i := 0; i < nn; i += BlockSize { update(p[i:]) }` (skein512.go:57-60) -/
def blocksLoop (k : Code) (c : Chain) (p : Bytes) (nn : Nat) : Chain :=
  forLoop 0 (nn / (8 * k.n)) (fun c i => update k c (bytesToBlock k.n (p.drop (i * (8 * k.n))))) c

/-- skein512.go:45-53: complete the buffered block. -/
def writeHead (k : Code) (s : HashFunc) (p : Bytes) : HashFunc × Bytes :=
  let dif := 8 * k.n - s.off
  if 0 < s.off ∧ dif < p.length then
    let s := { s with block := goCopy s.block s.off (p.take dif), off := s.off + (p.take dif).length }
    let p := p.drop dif
    if s.off = 8 * k.n ∧ 0 < p.length then
      ({ s with c := update k s.c (bytesToBlock k.n s.block), off := 0 }, p)
    else (s, p)
  else (s, p)

/-- skein512.go:55-65: whole blocks, but for the last one.  `length & ^(BlockSize-1)` is `length`
rounded down to a multiple of the block size, a power of two. -/
def writeBody (k : Code) (s : HashFunc) (p : Bytes) : HashFunc × Bytes :=
  if 8 * k.n < p.length then
    let nn := p.length / (8 * k.n) * (8 * k.n)
    let nn := if p.length = nn then nn - 8 * k.n else nn
    ({ s with c := blocksLoop k s.c p nn }, p.drop nn)
  else (s, p)

/-- skein512.go:67-69: keep the rest. -/
def writeTail (s : HashFunc) (p : Bytes) : HashFunc :=
  if 0 < p.length then
    { s with block := goCopy s.block s.off p, off := s.off + min p.length (s.block.length - s.off) }
  else s

/-- `Write` (skein512.go:36-71) -/
def write (k : Code) (s : HashFunc) (p : Bytes) : HashFunc :=
  let h := writeHead k { s with hasMsg := true } p
  let b := writeBody k h.1 h.2
  writeTail b.1 b.2

/-- `finalizeHash` (skein512.go:198-211) -/
def finalizeHash (k : Code) (s : HashFunc) : HashFunc :=
  let c := incrementTweak s.c (BitVec.ofNat 64 s.off)
  let c := { c with t1 := c.t1 ||| finalBlock }
  let block := s.block.take s.off ++ zeros (s.block.length - s.off)
  { s with c := (ubi k (bytesToBlock k.n block) c).2, block := block, off := 0 }

/-- `output` (skein512.go:102-114) -/
def output (k : Code) (s : HashFunc) (counter : U64) : Bytes :=
  let block := counter :: List.replicate (k.n - 1) 0#64
  let b := (ubi k block { hVal := s.c.hVal, t0 := 8, t1 := (63#64 <<< 56) ||| firstBlock ||| finalBlock }).1
  blockToBytes (b.set 0 (b.getD 0 0#64 ^^^ counter))

/-- The output loop of `checkSum` (skein512.go:82-89): `i` counts down by the block size. -/
def outLoop (k : Code) (s : HashFunc) : Nat → Int → U64 → Bytes → Bytes
  | 0, _, _, b => b
  | fuel + 1, i, ctr, b =>
    if 0 < i then outLoop k s fuel (i - 8 * k.n) (ctr + 1) (b ++ output k s ctr) else b

/-- `checkSum` (skein512.go:80-92) -/
def checkSum (k : Code) (s : HashFunc) : Bytes :=
  let s := if s.hasMsg then finalizeHash k s else s
  (outLoop k s (s.hashsize + 1) s.hashsize 0 []).take s.hashsize

/-- `Reset` (skein512.go:14-26) -/
def reset (k : Code) (s : HashFunc) : HashFunc :=
  { s with block := zeros (8 * k.n), off := 0, hasMsg := false,
           c := { hVal := s.hValCpy, t0 := 0, t1 := (48#64 <<< 56) ||| firstBlock } }

/-- One optional argument of `initialize` (skein512.go:132-137, 164-190). -/
def arg (k : Code) (ty : U64) (v : Bytes) (s : HashFunc) : HashFunc :=
  finalizeHash k (write k { s with c := { s.c with t0 := 0, t1 := (ty <<< 56) ||| firstBlock } } v)

/-- `Config` (skein.go:42-48); a nil slice is the empty list. -/
structure Config where
  key : Bytes := []
  personal : Bytes := []
  publicKey : Bytes := []
  keyID : Bytes := []
  nonce : Bytes := []

/-- The configuration block (skein512.go:139-161). -/
def cfg (hashsize : Nat) : Bytes := le64 0x133414853#64 ++ le64 (BitVec.ofNat 64 (hashsize * 8)) ++ zeros 16

/-- `new(hashFunc)` -/
def zero (k : Code) : HashFunc :=
  { hashsize := 0, c := { hVal := List.replicate k.n 0#64, t0 := 0, t1 := 0 }, hValCpy := List.replicate k.n 0#64,
    block := zeros (8 * k.n), off := 0, hasMsg := false }

/-- `initialize` (skein512.go:116-196); a hash size below 1 is a panic and not modelled (`New` below). -/
def initialise (k : Code) (hashsize : Nat) (conf : Config) : HashFunc :=
  let s := { zero k with hashsize := hashsize }
  let s := if 0 < conf.key.length then arg k 0 conf.key s else s
  let s := arg k 4 (cfg hashsize) s
  let s := if 0 < conf.personal.length then arg k 8 conf.personal s else s
  let s := if 0 < conf.publicKey.length then arg k 12 conf.publicKey s else s
  let s := if 0 < conf.keyID.length then arg k 16 conf.keyID s else s
  let s := if 0 < conf.nonce.length then arg k 20 conf.nonce s else s
  reset k { s with hValCpy := s.c.hVal }

/-- `New` (skein.go:200-204); `none` is the panic of skein512.go:117-119. -/
def new (k : Code) (hashsize : Nat) (conf : Config) : Option HashFunc :=
  if hashsize < 1 then none else some (initialise k hashsize conf)

/-- An object built from a precomputed chaining value (skein.go:166-170). -/
def ofIV (k : Code) (iv : List U64) (hashsize : Nat) : HashFunc :=
  { hashsize := hashsize, c := { hVal := iv, t0 := 0, t1 := (48#64 <<< 56) ||| firstBlock }, hValCpy := iv,
    block := zeros (8 * k.n), off := 0, hasMsg := false }

/-- constants.go:45-50 -/
def iv160 : List U64 := [0x28B81A2AE013BD91, 0xC2F11668B5BDF78F, 0x1760D8F3F6A56F12, 0x4FB747588239904F,
  0x21EDE07F7EAF5056, 0xD908922E63ED70B8, 0xB8EC76FFECCB52FA, 0x01A47BB8A3F27A6E]
/-- constants.go:52-56 -/
def iv256 : List U64 := [0xCCD044A12FDB3E13, 0xE83590301A79A9EB, 0x55AEA0614F816E6F, 0x2A2767A4AE9B94DB,
  0xEC06025E74DD7683, 0xE7A436CDC4746251, 0xC36FBAF9393AD185, 0x3EEDBA1833EDFC13]
/-- constants.go:58-62 -/
def iv384 : List U64 := [0xA3F6C6BF3A75EF5F, 0xB0FEF9CCFD84FAA4, 0x9D77DD663D770CFE, 0xD798CBF3B468FDDA,
  0x1BC4A6668A0E4465, 0x7ED7D434E5807407, 0x548FC1ACD4EC44D6, 0x266E17546AA18FF8]
/-- constants.go:64-68 -/
def iv512 : List U64 := [0x4903ADFF749C51CE, 0x0D95DE399746DF03, 0x8FD1934127C79BCE, 0x9A255629FF352CB1,
  0x5DB62599DF6CA7B0, 0xEABE394CA9D5C3F4, 0x991112C71A75B523, 0xAE18A40B660FCC33]

/-- `New512` (skein.go:159-174) -/
def new512 (key : Bytes) : HashFunc :=
  if 0 < key.length then initialise code512 64 { key := key } else ofIV code512 iv512 64
/-- `New256` (skein.go:178-193) -/
def new256 (key : Bytes) : HashFunc :=
  if 0 < key.length then initialise code512 32 { key := key } else ofIV code512 iv256 32

/-- `Sum512`, `Sum384`, `Sum256`, `Sum160` (skein.go:52-150): `size` and the precomputed value. -/
def sumFunc (iv : List U64) (size : Nat) (msg key : Bytes) : Bytes :=
  let s := if 0 < key.length then initialise code512 size { key := key } else ofIV code512 iv size
  let s := finalizeHash code512 (write code512 s msg)
  (output code512 s 0).take size

/-- The object behind `hash.Hash`. -/
def impl (k : Code) : HashImpl HashFunc where
  write s p := some (write k s p, p.length)
  sum s b := some (s, b ++ checkSum k s)
  reset := reset k
  size s := s.hashsize
  blockSize _ := 8 * k.n

end Verif.Skein
