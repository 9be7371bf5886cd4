import Verif.BufDigest
/-
Model of package sha0: digest.go, sbox.go, utils.go.
-/
namespace Verif.SHA0

/-- sha0/sbox.go:3-9 -/
def initVal : List U32 := [0x67452301#32, 0xEFCDAB89#32, 0x98BADCFE#32, 0x10325476#32, 0xC3D2E1F0#32]
/-- sha0/sbox.go:11-16 -/
def sbox : List U32 := [0x5A827999#32, 0x6ED9EBA1#32, 0x8F1BBCDC#32, 0xCA62C1D6#32]

/-- Where a `W` variable gets its value: `getu32(data[off:])` or `Wp ^ Wq ^ Wr ^ Ws`. -/
inductive WSrc where
  | load (off : Nat)
  | mix (p q r s : Nat)
  deriving DecidableEq

/-- One group of three assignments of `processBlock` (sha0/digest.go:110-377):
`Ww = ..; e = rotl(a,5) + f(b,c,d) + e + Ww + sbox[k]; b = rotl(b,30)`.
Registers `A..E` are numbered 0..4 and `W0..Wf` 0..15; `f` is 0 for `(b&c)|(^b&d)`, 1 for
`b^c^d`, 2 for `(b&c)|(b&d)|(c&d)`. -/
structure Instr where
  w : Nat
  src : WSrc
  (e a b c d : Nat)
  f : Nat
  k : Nat
  deriving DecidableEq

/-- sha0/digest.go:110-377, the 80 groups in program order (tools/gen_sha0.py reads them off the
source text). -/
def prog : List Instr :=
  [⟨0, .load 0, 4, 0, 1, 2, 3, 0, 0⟩,
   ⟨1, .load 4, 3, 4, 0, 1, 2, 0, 0⟩,
   ⟨2, .load 8, 2, 3, 4, 0, 1, 0, 0⟩,
   ⟨3, .load 12, 1, 2, 3, 4, 0, 0, 0⟩,
   ⟨4, .load 16, 0, 1, 2, 3, 4, 0, 0⟩,
   ⟨5, .load 20, 4, 0, 1, 2, 3, 0, 0⟩,
   ⟨6, .load 24, 3, 4, 0, 1, 2, 0, 0⟩,
   ⟨7, .load 28, 2, 3, 4, 0, 1, 0, 0⟩,
   ⟨8, .load 32, 1, 2, 3, 4, 0, 0, 0⟩,
   ⟨9, .load 36, 0, 1, 2, 3, 4, 0, 0⟩,
   ⟨10, .load 40, 4, 0, 1, 2, 3, 0, 0⟩,
   ⟨11, .load 44, 3, 4, 0, 1, 2, 0, 0⟩,
   ⟨12, .load 48, 2, 3, 4, 0, 1, 0, 0⟩,
   ⟨13, .load 52, 1, 2, 3, 4, 0, 0, 0⟩,
   ⟨14, .load 56, 0, 1, 2, 3, 4, 0, 0⟩,
   ⟨15, .load 60, 4, 0, 1, 2, 3, 0, 0⟩,
   ⟨0, .mix 13 8 2 0, 3, 4, 0, 1, 2, 0, 0⟩,
   ⟨1, .mix 14 9 3 1, 2, 3, 4, 0, 1, 0, 0⟩,
   ⟨2, .mix 15 10 4 2, 1, 2, 3, 4, 0, 0, 0⟩,
   ⟨3, .mix 0 11 5 3, 0, 1, 2, 3, 4, 0, 0⟩,
   ⟨4, .mix 1 12 6 4, 4, 0, 1, 2, 3, 1, 1⟩,
   ⟨5, .mix 2 13 7 5, 3, 4, 0, 1, 2, 1, 1⟩,
   ⟨6, .mix 3 14 8 6, 2, 3, 4, 0, 1, 1, 1⟩,
   ⟨7, .mix 4 15 9 7, 1, 2, 3, 4, 0, 1, 1⟩,
   ⟨8, .mix 5 0 10 8, 0, 1, 2, 3, 4, 1, 1⟩,
   ⟨9, .mix 6 1 11 9, 4, 0, 1, 2, 3, 1, 1⟩,
   ⟨10, .mix 7 2 12 10, 3, 4, 0, 1, 2, 1, 1⟩,
   ⟨11, .mix 8 3 13 11, 2, 3, 4, 0, 1, 1, 1⟩,
   ⟨12, .mix 9 4 14 12, 1, 2, 3, 4, 0, 1, 1⟩,
   ⟨13, .mix 10 5 15 13, 0, 1, 2, 3, 4, 1, 1⟩,
   ⟨14, .mix 11 6 0 14, 4, 0, 1, 2, 3, 1, 1⟩,
   ⟨15, .mix 12 7 1 15, 3, 4, 0, 1, 2, 1, 1⟩,
   ⟨0, .mix 13 8 2 0, 2, 3, 4, 0, 1, 1, 1⟩,
   ⟨1, .mix 14 9 3 1, 1, 2, 3, 4, 0, 1, 1⟩,
   ⟨2, .mix 15 10 4 2, 0, 1, 2, 3, 4, 1, 1⟩,
   ⟨3, .mix 0 11 5 3, 4, 0, 1, 2, 3, 1, 1⟩,
   ⟨4, .mix 1 12 6 4, 3, 4, 0, 1, 2, 1, 1⟩,
   ⟨5, .mix 2 13 7 5, 2, 3, 4, 0, 1, 1, 1⟩,
   ⟨6, .mix 3 14 8 6, 1, 2, 3, 4, 0, 1, 1⟩,
   ⟨7, .mix 4 15 9 7, 0, 1, 2, 3, 4, 1, 1⟩,
   ⟨8, .mix 5 0 10 8, 4, 0, 1, 2, 3, 2, 2⟩,
   ⟨9, .mix 6 1 11 9, 3, 4, 0, 1, 2, 2, 2⟩,
   ⟨10, .mix 7 2 12 10, 2, 3, 4, 0, 1, 2, 2⟩,
   ⟨11, .mix 8 3 13 11, 1, 2, 3, 4, 0, 2, 2⟩,
   ⟨12, .mix 9 4 14 12, 0, 1, 2, 3, 4, 2, 2⟩,
   ⟨13, .mix 10 5 15 13, 4, 0, 1, 2, 3, 2, 2⟩,
   ⟨14, .mix 11 6 0 14, 3, 4, 0, 1, 2, 2, 2⟩,
   ⟨15, .mix 12 7 1 15, 2, 3, 4, 0, 1, 2, 2⟩,
   ⟨0, .mix 13 8 2 0, 1, 2, 3, 4, 0, 2, 2⟩,
   ⟨1, .mix 14 9 3 1, 0, 1, 2, 3, 4, 2, 2⟩,
   ⟨2, .mix 15 10 4 2, 4, 0, 1, 2, 3, 2, 2⟩,
   ⟨3, .mix 0 11 5 3, 3, 4, 0, 1, 2, 2, 2⟩,
   ⟨4, .mix 1 12 6 4, 2, 3, 4, 0, 1, 2, 2⟩,
   ⟨5, .mix 2 13 7 5, 1, 2, 3, 4, 0, 2, 2⟩,
   ⟨6, .mix 3 14 8 6, 0, 1, 2, 3, 4, 2, 2⟩,
   ⟨7, .mix 4 15 9 7, 4, 0, 1, 2, 3, 2, 2⟩,
   ⟨8, .mix 5 0 10 8, 3, 4, 0, 1, 2, 2, 2⟩,
   ⟨9, .mix 6 1 11 9, 2, 3, 4, 0, 1, 2, 2⟩,
   ⟨10, .mix 7 2 12 10, 1, 2, 3, 4, 0, 2, 2⟩,
   ⟨11, .mix 8 3 13 11, 0, 1, 2, 3, 4, 2, 2⟩,
   ⟨12, .mix 9 4 14 12, 4, 0, 1, 2, 3, 1, 3⟩,
   ⟨13, .mix 10 5 15 13, 3, 4, 0, 1, 2, 1, 3⟩,
   ⟨14, .mix 11 6 0 14, 2, 3, 4, 0, 1, 1, 3⟩,
   ⟨15, .mix 12 7 1 15, 1, 2, 3, 4, 0, 1, 3⟩,
   ⟨0, .mix 13 8 2 0, 0, 1, 2, 3, 4, 1, 3⟩,
   ⟨1, .mix 14 9 3 1, 4, 0, 1, 2, 3, 1, 3⟩,
   ⟨2, .mix 15 10 4 2, 3, 4, 0, 1, 2, 1, 3⟩,
   ⟨3, .mix 0 11 5 3, 2, 3, 4, 0, 1, 1, 3⟩,
   ⟨4, .mix 1 12 6 4, 1, 2, 3, 4, 0, 1, 3⟩,
   ⟨5, .mix 2 13 7 5, 0, 1, 2, 3, 4, 1, 3⟩,
   ⟨6, .mix 3 14 8 6, 4, 0, 1, 2, 3, 1, 3⟩,
   ⟨7, .mix 4 15 9 7, 3, 4, 0, 1, 2, 1, 3⟩,
   ⟨8, .mix 5 0 10 8, 2, 3, 4, 0, 1, 1, 3⟩,
   ⟨9, .mix 6 1 11 9, 1, 2, 3, 4, 0, 1, 3⟩,
   ⟨10, .mix 7 2 12 10, 0, 1, 2, 3, 4, 1, 3⟩,
   ⟨11, .mix 8 3 13 11, 4, 0, 1, 2, 3, 1, 3⟩,
   ⟨12, .mix 9 4 14 12, 3, 4, 0, 1, 2, 1, 3⟩,
   ⟨13, .mix 10 5 15 13, 2, 3, 4, 0, 1, 1, 3⟩,
   ⟨14, .mix 11 6 0 14, 1, 2, 3, 4, 0, 1, 3⟩,
   ⟨15, .mix 12 7 1 15, 0, 1, 2, 3, 4, 1, 3⟩]

/-- The three forms of the second summand. -/
def fn (k : Nat) (b c d : U32) : U32 :=
  match k with
  | 0 => (b &&& c) ||| (~~~b &&& d)
  | 1 => b ^^^ c ^^^ d
  | _ => (b &&& c) ||| (b &&& d) ||| (c &&& d)

/-- The right-hand side assigned to a `W` variable. -/
def WSrc.val (data : Bytes) (W : List U32) : WSrc → U32
  | .load off => getBE32 data off
  | .mix p q r s => W.getD p 0 ^^^ W.getD q 0 ^^^ W.getD r 0 ^^^ W.getD s 0

/-- Effect of one group on the registers `h` and the variables `W`. -/
def exec (data : Bytes) (st : List U32 × List U32) (i : Instr) : List U32 × List U32 :=
  let (h, W) := st
  let r (n : Nat) := h.getD n 0
  let w : U32 := i.src.val data W
  let W := W.set i.w w
  let e := ((r i.a <<< 5) ||| (r i.a >>> 27)) + fn i.f (r i.b) (r i.c) (r i.d) + r i.e + w + sbox.getD i.k 0
  let b := (r i.b <<< 30) ||| (r i.b >>> 2)
  ((h.set i.e e).set i.b b, W)

/-- sha0/digest.go:101-384 `processBlock`: the new `d.s`. -/
def processBlock (s : List U32) (data : Bytes) : List U32 :=
  let h := [s.getD 0 0, s.getD 1 0, s.getD 2 0, s.getD 3 0, s.getD 4 0]
  let (h, _) := prog.foldl (exec data) (h, List.replicate 16 0#32)
  [s.getD 0 0 + h.getD 0 0, s.getD 1 0 + h.getD 1 0, s.getD 2 0 + h.getD 2 0,
   s.getD 3 0 + h.getD 3 0, s.getD 4 0 + h.getD 4 0]

/-- sha0/digest.go:11-16 -/
abbrev Digest := BufDigest (List U32)

/-- sha0/digest.go:26-31 `Reset` -/
def reset (_ : Digest) : Digest := { s := initVal, x := zeros 64, nx := 0, len := 0 }

/-- sha0/digest.go:19-24 `newDigest` -/
def new : Digest := reset { s := List.replicate 5 0, x := zeros 64, nx := 0, len := 0 }

/-- sha0/digest.go:41-63 `Write` -/
def write (d : Digest) (p : Bytes) : Digest := d.absorb 64 processBlock p

/-- sha0/digest.go:72-99 `checkSum`: pads through `Write`.
`(n) & ^(blen-1)` with `blen = 64` is `n / 64 * 64`. -/
def checkSum (d : Digest) : Bytes :=
  let dataLen := d.nx
  let currentLength := d.len * 8
  let countBuf := be32 ((currentLength >>> 32).setWidth 32) ++ be32 (currentLength.setWidth 32)
  let endLen := (dataLen + 8 + 64) / 64 * 64
  let d := write d [0x80#8]
  let d := forLoop (dataLen + 1) (endLen - 8) (fun d _ => write d [0x00#8]) d
  let d := write d countBuf
  be32 (d.s.getD 0 0) ++ be32 (d.s.getD 1 0) ++ be32 (d.s.getD 2 0) ++ be32 (d.s.getD 3 0) ++
    be32 (d.s.getD 4 0)

/-- sha0/digest.go:65-70 `Sum` (on a copy), 33-39 `Size`, `BlockSize`. -/
def impl : HashImpl Digest where
  write d p := some (write d p, p.length)
  sum d b := some (d, b ++ checkSum d)
  reset := reset
  size _ := 20
  blockSize _ := 64

end Verif.SHA0
