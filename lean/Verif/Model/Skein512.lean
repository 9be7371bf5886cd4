import Verif.Lazy
import Verif.Model.Skein
/-
Model of skein512 (skein512/hash.go, block.go, sbox.go, skein.go).  The unrolled body of `block` is
transcribed into an instruction list (tools/gen_skein512.py).
-/
namespace Verif.Skein512
open Verif.Threefish Verif.Skein

/-- The body of `block` (skein512/block.go:11-830); key word 8 is `k8`, tweak word 2 is `t2`. -/
def block512 : List Instr := [
  .keyAbs 0 0 none none, .keyAbs 1 1 none none, .keyAbs 2 2 none none, .keyAbs 3 3 none none,
  .keyAbs 4 4 none none, .keyAbs 5 5 (some 0) none, .keyAbs 6 6 (some 1) none, .keyAbs 7 7 none none,
  .mix 0 1 46, .mix 2 3 36, .mix 4 5 19, .mix 6 7 37,
  .mix 2 1 33, .mix 4 7 27, .mix 6 5 14, .mix 0 3 42,
  .mix 4 1 17, .mix 6 3 49, .mix 0 5 36, .mix 2 7 39,
  .mix 6 1 44, .mix 0 7 9, .mix 2 5 54, .mix 4 3 56,
  .keyAbs 0 1 none none, .keyAbs 1 2 none none, .keyAbs 2 3 none none, .keyAbs 3 4 none none,
  .keyAbs 4 5 none none, .keyAbs 5 6 (some 1) none, .keyAbs 6 7 (some 2) none, .keyAbs 7 8 none (some 1),
  .mix 0 1 39, .mix 2 3 30, .mix 4 5 34, .mix 6 7 24,
  .mix 2 1 13, .mix 4 7 50, .mix 6 5 10, .mix 0 3 17,
  .mix 4 1 25, .mix 6 3 29, .mix 0 5 39, .mix 2 7 43,
  .mix 6 1 8, .mix 0 7 35, .mix 2 5 56, .mix 4 3 22,
  .keyAbs 0 2 none none, .keyAbs 1 3 none none, .keyAbs 2 4 none none, .keyAbs 3 5 none none,
  .keyAbs 4 6 none none, .keyAbs 5 7 (some 2) none, .keyAbs 6 8 (some 0) none, .keyAbs 7 0 none (some 2),
  .mix 0 1 46, .mix 2 3 36, .mix 4 5 19, .mix 6 7 37,
  .mix 2 1 33, .mix 4 7 27, .mix 6 5 14, .mix 0 3 42,
  .mix 4 1 17, .mix 6 3 49, .mix 0 5 36, .mix 2 7 39,
  .mix 6 1 44, .mix 0 7 9, .mix 2 5 54, .mix 4 3 56,
  .keyAbs 0 3 none none, .keyAbs 1 4 none none, .keyAbs 2 5 none none, .keyAbs 3 6 none none,
  .keyAbs 4 7 none none, .keyAbs 5 8 (some 0) none, .keyAbs 6 0 (some 1) none, .keyAbs 7 1 none (some 3),
  .mix 0 1 39, .mix 2 3 30, .mix 4 5 34, .mix 6 7 24,
  .mix 2 1 13, .mix 4 7 50, .mix 6 5 10, .mix 0 3 17,
  .mix 4 1 25, .mix 6 3 29, .mix 0 5 39, .mix 2 7 43,
  .mix 6 1 8, .mix 0 7 35, .mix 2 5 56, .mix 4 3 22,
  .keyAbs 0 4 none none, .keyAbs 1 5 none none, .keyAbs 2 6 none none, .keyAbs 3 7 none none,
  .keyAbs 4 8 none none, .keyAbs 5 0 (some 1) none, .keyAbs 6 1 (some 2) none, .keyAbs 7 2 none (some 4),
  .mix 0 1 46, .mix 2 3 36, .mix 4 5 19, .mix 6 7 37,
  .mix 2 1 33, .mix 4 7 27, .mix 6 5 14, .mix 0 3 42,
  .mix 4 1 17, .mix 6 3 49, .mix 0 5 36, .mix 2 7 39,
  .mix 6 1 44, .mix 0 7 9, .mix 2 5 54, .mix 4 3 56,
  .keyAbs 0 5 none none, .keyAbs 1 6 none none, .keyAbs 2 7 none none, .keyAbs 3 8 none none,
  .keyAbs 4 0 none none, .keyAbs 5 1 (some 2) none, .keyAbs 6 2 (some 0) none, .keyAbs 7 3 none (some 5),
  .mix 0 1 39, .mix 2 3 30, .mix 4 5 34, .mix 6 7 24,
  .mix 2 1 13, .mix 4 7 50, .mix 6 5 10, .mix 0 3 17,
  .mix 4 1 25, .mix 6 3 29, .mix 0 5 39, .mix 2 7 43,
  .mix 6 1 8, .mix 0 7 35, .mix 2 5 56, .mix 4 3 22,
  .keyAbs 0 6 none none, .keyAbs 1 7 none none, .keyAbs 2 8 none none, .keyAbs 3 0 none none,
  .keyAbs 4 1 none none, .keyAbs 5 2 (some 0) none, .keyAbs 6 3 (some 1) none, .keyAbs 7 4 none (some 6),
  .mix 0 1 46, .mix 2 3 36, .mix 4 5 19, .mix 6 7 37,
  .mix 2 1 33, .mix 4 7 27, .mix 6 5 14, .mix 0 3 42,
  .mix 4 1 17, .mix 6 3 49, .mix 0 5 36, .mix 2 7 39,
  .mix 6 1 44, .mix 0 7 9, .mix 2 5 54, .mix 4 3 56,
  .keyAbs 0 7 none none, .keyAbs 1 8 none none, .keyAbs 2 0 none none, .keyAbs 3 1 none none,
  .keyAbs 4 2 none none, .keyAbs 5 3 (some 1) none, .keyAbs 6 4 (some 2) none, .keyAbs 7 5 none (some 7),
  .mix 0 1 39, .mix 2 3 30, .mix 4 5 34, .mix 6 7 24,
  .mix 2 1 13, .mix 4 7 50, .mix 6 5 10, .mix 0 3 17,
  .mix 4 1 25, .mix 6 3 29, .mix 0 5 39, .mix 2 7 43,
  .mix 6 1 8, .mix 0 7 35, .mix 2 5 56, .mix 4 3 22,
  .keyAbs 0 8 none none, .keyAbs 1 0 none none, .keyAbs 2 1 none none, .keyAbs 3 2 none none,
  .keyAbs 4 3 none none, .keyAbs 5 4 (some 2) none, .keyAbs 6 5 (some 0) none, .keyAbs 7 6 none (some 8),
  .mix 0 1 46, .mix 2 3 36, .mix 4 5 19, .mix 6 7 37,
  .mix 2 1 33, .mix 4 7 27, .mix 6 5 14, .mix 0 3 42,
  .mix 4 1 17, .mix 6 3 49, .mix 0 5 36, .mix 2 7 39,
  .mix 6 1 44, .mix 0 7 9, .mix 2 5 54, .mix 4 3 56,
  .keyAbs 0 0 none none, .keyAbs 1 1 none none, .keyAbs 2 2 none none, .keyAbs 3 3 none none,
  .keyAbs 4 4 none none, .keyAbs 5 5 (some 0) none, .keyAbs 6 6 (some 1) none, .keyAbs 7 7 none (some 9),
  .mix 0 1 39, .mix 2 3 30, .mix 4 5 34, .mix 6 7 24,
  .mix 2 1 13, .mix 4 7 50, .mix 6 5 10, .mix 0 3 17,
  .mix 4 1 25, .mix 6 3 29, .mix 0 5 39, .mix 2 7 43,
  .mix 6 1 8, .mix 0 7 35, .mix 2 5 56, .mix 4 3 22,
  .keyAbs 0 1 none none, .keyAbs 1 2 none none, .keyAbs 2 3 none none, .keyAbs 3 4 none none,
  .keyAbs 4 5 none none, .keyAbs 5 6 (some 1) none, .keyAbs 6 7 (some 2) none, .keyAbs 7 8 none (some 10),
  .mix 0 1 46, .mix 2 3 36, .mix 4 5 19, .mix 6 7 37,
  .mix 2 1 33, .mix 4 7 27, .mix 6 5 14, .mix 0 3 42,
  .mix 4 1 17, .mix 6 3 49, .mix 0 5 36, .mix 2 7 39,
  .mix 6 1 44, .mix 0 7 9, .mix 2 5 54, .mix 4 3 56,
  .keyAbs 0 2 none none, .keyAbs 1 3 none none, .keyAbs 2 4 none none, .keyAbs 3 5 none none,
  .keyAbs 4 6 none none, .keyAbs 5 7 (some 2) none, .keyAbs 6 8 (some 0) none, .keyAbs 7 0 none (some 11),
  .mix 0 1 39, .mix 2 3 30, .mix 4 5 34, .mix 6 7 24,
  .mix 2 1 13, .mix 4 7 50, .mix 6 5 10, .mix 0 3 17,
  .mix 4 1 25, .mix 6 3 29, .mix 0 5 39, .mix 2 7 43,
  .mix 6 1 8, .mix 0 7 35, .mix 2 5 56, .mix 4 3 22,
  .keyAbs 0 3 none none, .keyAbs 1 4 none none, .keyAbs 2 5 none none, .keyAbs 3 6 none none,
  .keyAbs 4 7 none none, .keyAbs 5 8 (some 0) none, .keyAbs 6 0 (some 1) none, .keyAbs 7 1 none (some 12),
  .mix 0 1 46, .mix 2 3 36, .mix 4 5 19, .mix 6 7 37,
  .mix 2 1 33, .mix 4 7 27, .mix 6 5 14, .mix 0 3 42,
  .mix 4 1 17, .mix 6 3 49, .mix 0 5 36, .mix 2 7 39,
  .mix 6 1 44, .mix 0 7 9, .mix 2 5 54, .mix 4 3 56,
  .keyAbs 0 4 none none, .keyAbs 1 5 none none, .keyAbs 2 6 none none, .keyAbs 3 7 none none,
  .keyAbs 4 8 none none, .keyAbs 5 0 (some 1) none, .keyAbs 6 1 (some 2) none, .keyAbs 7 2 none (some 13),
  .mix 0 1 39, .mix 2 3 30, .mix 4 5 34, .mix 6 7 24,
  .mix 2 1 13, .mix 4 7 50, .mix 6 5 10, .mix 0 3 17,
  .mix 4 1 25, .mix 6 3 29, .mix 0 5 39, .mix 2 7 43,
  .mix 6 1 8, .mix 0 7 35, .mix 2 5 56, .mix 4 3 22,
  .keyAbs 0 5 none none, .keyAbs 1 6 none none, .keyAbs 2 7 none none, .keyAbs 3 8 none none,
  .keyAbs 4 0 none none, .keyAbs 5 1 (some 2) none, .keyAbs 6 2 (some 0) none, .keyAbs 7 3 none (some 14),
  .mix 0 1 46, .mix 2 3 36, .mix 4 5 19, .mix 6 7 37,
  .mix 2 1 33, .mix 4 7 27, .mix 6 5 14, .mix 0 3 42,
  .mix 4 1 17, .mix 6 3 49, .mix 0 5 36, .mix 2 7 39,
  .mix 6 1 44, .mix 0 7 9, .mix 2 5 54, .mix 4 3 56,
  .keyAbs 0 6 none none, .keyAbs 1 7 none none, .keyAbs 2 8 none none, .keyAbs 3 0 none none,
  .keyAbs 4 1 none none, .keyAbs 5 2 (some 0) none, .keyAbs 6 3 (some 1) none, .keyAbs 7 4 none (some 15),
  .mix 0 1 39, .mix 2 3 30, .mix 4 5 34, .mix 6 7 24,
  .mix 2 1 13, .mix 4 7 50, .mix 6 5 10, .mix 0 3 17,
  .mix 4 1 25, .mix 6 3 29, .mix 0 5 39, .mix 2 7 43,
  .mix 6 1 8, .mix 0 7 35, .mix 2 5 56, .mix 4 3 22,
  .keyAbs 0 7 none none, .keyAbs 1 8 none none, .keyAbs 2 0 none none, .keyAbs 3 1 none none,
  .keyAbs 4 2 none none, .keyAbs 5 3 (some 1) none, .keyAbs 6 4 (some 2) none, .keyAbs 7 5 none (some 16),
  .mix 0 1 46, .mix 2 3 36, .mix 4 5 19, .mix 6 7 37,
  .mix 2 1 33, .mix 4 7 27, .mix 6 5 14, .mix 0 3 42,
  .mix 4 1 17, .mix 6 3 49, .mix 0 5 36, .mix 2 7 39,
  .mix 6 1 44, .mix 0 7 9, .mix 2 5 54, .mix 4 3 56,
  .keyAbs 0 8 none none, .keyAbs 1 0 none none, .keyAbs 2 1 none none, .keyAbs 3 2 none none,
  .keyAbs 4 3 none none, .keyAbs 5 4 (some 2) none, .keyAbs 6 5 (some 0) none, .keyAbs 7 6 none (some 17),
  .mix 0 1 39, .mix 2 3 30, .mix 4 5 34, .mix 6 7 24,
  .mix 2 1 13, .mix 4 7 50, .mix 6 5 10, .mix 0 3 17,
  .mix 4 1 25, .mix 6 3 29, .mix 0 5 39, .mix 2 7 43,
  .mix 6 1 8, .mix 0 7 35, .mix 2 5 56, .mix 4 3 22,
  .keyAbs 0 0 none none, .keyAbs 1 1 none none, .keyAbs 2 2 none none, .keyAbs 3 3 none none,
  .keyAbs 4 4 none none, .keyAbs 5 5 (some 0) none, .keyAbs 6 6 (some 1) none, .keyAbs 7 7 none (some 18)]

/-- `block(k, t, dst, src)` (block.go:7-839): the value of `dst`. -/
def block (k : List U64) (t0 t1 : U64) (src : List U64) : List U64 :=
  let k8 := k.foldl (· ^^^ ·) 0x1bd11bdaa9fc1a22#64
  let b := exec 9 (load (k ++ [k8])) (load [t0, t1, t0 ^^^ t1]) 0 block512 (load src)
  List.zipWith (· ^^^ ·) src ((List.range 8).map b)

/-- sbox.go:17 -/
def firstBlockFlag : U64 := 1#64 <<< 62
/-- sbox.go:18 -/
def lastBlockFlag : U64 := 1#64 <<< 63

/-- `Hash` (hash.go:38-49): `c` holds the chain value `k` and the tweak `t`. -/
structure Hash where
  c : Chain
  x : Bytes
  nx : Nat
  outLen : U64
  noMsg : Bool
  ik : List U64

/-- `hashBlock` (hash.go:180-207) on the chain value and the tweak. -/
def hashBlock (c : Chain) (b : Bytes) (unpaddedLen : Nat) : Chain :=
  let t0 := c.t0 + BitVec.ofNat 64 unpaddedLen
  { hVal := block c.hVal t0 c.t1 (bytesToBlock 8 b), t0 := t0, t1 := c.t1 &&& ~~~firstBlockFlag }

/-- `hashLastBlock` (hash.go:76-86) -/
def hashLastBlock (h : Hash) : Hash :=
  let x := h.x.take h.nx ++ zeros (h.x.length - h.nx)
  { h with x := x, c := hashBlock { h.c with t1 := h.c.t1 ||| lastBlockFlag } x h.nx, nx := 0 }

/-- `outputBlock` (hash.go:88-102) -/
def outputBlock (k : List U64) (counter : U64) : Bytes :=
  (block k 8 ((63#64 <<< 56) ||| firstBlockFlag ||| lastBlockFlag) (counter :: List.replicate 7 0#64)).flatMap le64

/-- `appendOutput` (hash.go:104-123): the loop. -/
def appendLoop (k : List U64) : Nat → Nat → U64 → Bytes → Bytes
  | 0, _, _, out => out
  | fuel + 1, length, counter, out =>
    if 0 < length then
      let b := outputBlock k counter
      if length < 64 then out ++ b.take length
      else appendLoop k fuel (length - 64) (counter + 1) (out ++ b)
    else out
/-- `appendOutput` (hash.go:104-123) -/
def appendOutput (k : List U64) (length : U64) : Bytes := appendLoop k (length.toNat + 1) length.toNat 0 []

/-- hash.go:126-133: the beginning of `update`, completing the buffered block. -/
def updateHead (h : Hash) (b : Bytes) : Hash × Bytes :=
  let left := 64 - h.nx
  if left < b.length then
    let x := goCopy h.x h.nx (b.take left)
    ({ h with x := x, c := hashBlock h.c x 64, nx := 0 }, b.drop left)
  else (h, b)

/-- `update` (hash.go:125-143) -/
def update (h : Hash) (b : Bytes) : Hash :=
  let r := updateHead h b
  let l := lazyLoop 64 (fun c b => hashBlock c b 64) r.2.length r.1.c r.2
  { r.1 with c := l.1, x := goCopy r.1.x r.1.nx l.2, nx := r.1.nx + min l.2.length (r.1.x.length - r.1.nx) }

/-- `checkSum` (hash.go:164-171) -/
def checkSum (h : Hash) : Bytes :=
  let h := if h.noMsg then h else hashLastBlock h
  appendOutput h.c.hVal h.outLen

/-- `Reset` (hash.go:54-62) -/
def reset (h : Hash) : Hash :=
  { h with c := { hVal := h.ik, t0 := 0, t1 := (48#64 <<< 56) ||| firstBlockFlag }, nx := 0 }

/-- `addArg` (hash.go:300-305) -/
def addArg (argType : U64) (arg : Bytes) (h : Hash) : Hash :=
  hashLastBlock (update { h with c := { h.c with t0 := 0, t1 := (argType <<< 56) ||| firstBlockFlag } } arg)

/-- `addConfig` (hash.go:308-320) -/
def addConfig (outBits : U64) (h : Hash) : Hash :=
  addArg 4 (ascii "SHA3" ++ [1, 0, 0, 0] ++ le64 outBits ++ zeros 16) h

/-- `Args` (hash.go:10-23): `none` is a nil slice. -/
structure Args where
  key : Option Bytes := none
  person : Option Bytes := none
  publicKey : Option Bytes := none
  keyId : Option Bytes := none
  nonce : Option Bytes := none
  noMsg : Bool := false

/-- sbox.go:24-27 -/
def iv224 : List U64 := [0xCCD0616248677224, 0xCBA65CF3A92339EF, 0x8CCD69D652FF4B64, 0x398AED7B3AB890B4,
  0x0F59D1B1457D2BD0, 0x6776FE6575D4EB3D, 0x99FBC70E997413E9, 0x9E2CFCCFE1C41EF7]
/-- sbox.go:29-32 -/
def iv256 : List U64 := [0xCCD044A12FDB3E13, 0xE83590301A79A9EB, 0x55AEA0614F816E6F, 0x2A2767A4AE9B94DB,
  0xEC06025E74DD7683, 0xE7A436CDC4746251, 0xC36FBAF9393AD185, 0x3EEDBA1833EDFC13]
/-- sbox.go:34-37 -/
def iv384 : List U64 := [0xA3F6C6BF3A75EF5F, 0xB0FEF9CCFD84FAA4, 0x9D77DD663D770CFE, 0xD798CBF3B468FDDA,
  0x1BC4A6668A0E4465, 0x7ED7D434E5807407, 0x548FC1ACD4EC44D6, 0x266E17546AA18FF8]
/-- sbox.go:39-42 -/
def iv512 : List U64 := [0x4903ADFF749C51CE, 0x0D95DE399746DF03, 0x8FD1934127C79BCE, 0x9A255629FF352CB1,
  0x5DB62599DF6CA7B0, 0xEABE394CA9D5C3F4, 0x991112C71A75B523, 0xAE18A40B660FCC33]

/-- `new(Hash)` with `outLen` (hash.go:326-327) -/
def blank (outLen : U64) : Hash :=
  { c := { hVal := List.replicate 8 0#64, t0 := 0, t1 := 0 }, x := zeros 64, nx := 0, outLen := outLen, noMsg := false,
    ik := List.replicate 8 0#64 }

/-- hash.go:329-348: the key and the configuration. -/
def newConf (outLen : U64) (key : Option Bytes) : Hash :=
  match key with
  | some key => addConfig (outLen * 8) (addArg 0 key (blank outLen))
  | none =>
    if outLen = 28 then { blank outLen with c := { (blank outLen).c with hVal := iv224 } }
    else if outLen = 32 then { blank outLen with c := { (blank outLen).c with hVal := iv256 } }
    else if outLen = 48 then { blank outLen with c := { (blank outLen).c with hVal := iv384 } }
    else if outLen = 64 then { blank outLen with c := { (blank outLen).c with hVal := iv512 } }
    else addConfig (outLen * 8) (blank outLen)

/-- `if args.X != nil { h.addArg(ty, args.X) }` (hash.go:354-365) -/
def optArg (ty : U64) (v : Option Bytes) (h : Hash) : Hash :=
  match v with | some v => addArg ty v h | none => h

/-- `New` (hash.go:325-376); `args` nil behaves as `Args{}`. -/
def new (outLen : U64) (args : Args) : Hash :=
  let h := newConf outLen args.key
  let h := { h with noMsg := args.noMsg }
  let h := optArg 8 args.person h
  let h := optArg 12 args.publicKey h
  let h := optArg 16 args.keyId h
  let h := optArg 20 args.nonce h
  { h with c := { h.c with t0 := 0, t1 := (48#64 <<< 56) ||| firstBlockFlag }, ik := h.c.hVal }

/-- The object behind `hash.Hash`.  `Write` on an object configured with `NoMsg` returns an error
(hash.go:147-153), here `none`. -/
def impl : HashImpl Hash where
  write h b := if h.noMsg then none else some (update h b, b.length)
  sum h p := some (h, p ++ checkSum h)
  reset := reset
  size h := h.outLen.toNat
  blockSize _ := 64

/-! ### The output reader -/

/-- `outputReader` (hash.go:211-214): the chain value, the buffer and its position, the counter. -/
structure Reader where
  k : List U64
  x : Bytes
  nx : Nat
  counter : U64

/-- `newOutputReader` (hash.go:218-228) -/
def newReader (h : Hash) : Reader :=
  let h := if h.noMsg then h else hashLastBlock h
  { k := h.c.hVal, x := h.x, nx := 64, counter := 0 }

/-- `nextBlock` (hash.go:231-235) -/
def nextBlock (r : Reader) : Reader := { r with x := outputBlock r.k r.counter, counter := r.counter + 1, nx := 0 }

/-- hash.go:252-256: `for len(p) >= BlockSize { copy(p, r.x[:]); p = p[BlockSize:]; r.nextBlock() }`,
with `n` the length of `p`. -/
def readLoop : Nat → Reader → Nat → Bytes → Reader × Nat × Bytes
  | 0, r, n, out => (r, n, out)
  | fuel + 1, r, n, out => if 64 ≤ n then readLoop fuel (nextBlock r) (n - 64) (out ++ r.x) else (r, n, out)

/-- `Read` (hash.go:239-261) into a slice of `n` bytes: the new state and the bytes stored. -/
def read (r : Reader) (n : Nat) : Reader × Bytes :=
  let left := 64 - r.nx
  if n < left then ({ r with nx := r.nx + n }, (r.x.drop r.nx).take n)
  else
    let l := readLoop n (nextBlock r) (n - left) (r.x.drop r.nx)
    if 0 < l.2.1 then ({ l.1 with nx := l.1.nx + l.2.1 }, l.2.2 ++ l.1.x.take l.2.1) else (l.1, l.2.2)

/-- hash.go:283-289 -/
def xorLoop : Nat → Reader → Bytes → Bytes → Reader × Bytes × Bytes
  | 0, r, src, out => (r, src, out)
  | fuel + 1, r, src, out =>
    if 64 ≤ src.length then
      xorLoop fuel (nextBlock r) (src.drop 64) (out ++ List.zipWith (· ^^^ ·) (src.take 64) r.x)
    else (r, src, out)

/-- `XORKeyStream` (hash.go:265-297): the new state and the bytes stored in `dst` (which must have room
for `len(src)` bytes; each byte is written after the same byte of `src` is read, so the two may be
the same memory). -/
def xorKeyStream (r : Reader) (src : Bytes) : Reader × Bytes :=
  let left := 64 - r.nx
  if src.length < left then ({ r with nx := r.nx + src.length }, List.zipWith (· ^^^ ·) src (r.x.drop r.nx))
  else
    let l := xorLoop src.length (nextBlock r) (src.drop left) (List.zipWith (· ^^^ ·) (src.take left) (r.x.drop r.nx))
    if 0 < l.2.1.length then ({ l.1 with nx := l.1.nx + l.2.1.length }, l.2.2 ++ List.zipWith (· ^^^ ·) l.2.1 l.1.x)
    else (l.1, l.2.2)

/-- `NewStream` (skein.go:46-50) -/
def newStream (key nonce : Option Bytes) : Reader :=
  newReader (new (0x1FFFFFFFFFFFFFFF#64) { key := key, nonce := nonce, noMsg := true })

end Verif.Skein512
