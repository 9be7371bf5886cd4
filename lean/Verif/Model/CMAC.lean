import Verif.HashAPI
/-
Model of package cmac: cmac.go, utils.go, verify.go.  The block cipher is a parameter: a block size and a function
`Encrypt` on blocks (`crypto/cipher.Block`; it must return blocks).
-/
namespace Verif.CMAC

/-- cmac/utils.go:19-21 `xor(dst[off:], b)`, i.e. `subtle.XORBytes(dst[off:], dst[off:], b)`: the first
min(len(dst)-off, len(b)) bytes. -/
def xorAt (dst : Bytes) (off : Nat) (b : Bytes) : Bytes :=
  dst.take off ++ List.zipWith (· ^^^ ·) (dst.drop off) b ++ dst.drop (off + b.length)

/-- cmac/utils.go:7-16 `shift`: new contents and the bit shifted out.  The Go loop runs from the last byte to the
first, carrying the bit; here the tail is done first. -/
def shift : Bytes → Bytes × Byte
  | [] => ([], 0)
  | x :: xs => let r := shift xs; ((x <<< 1 ||| r.2) :: r.1, x >>> 7)

/-- cmac/cmac.go:42-48 -/
structure Cmac where
  bs : Nat
  E : Bytes → Bytes
  k0 : Bytes
  k1 : Bytes
  buf : Bytes
  off : Nat
  tagsize : Nat

/-- cmac/cmac.go:27-34, 65-79: the polynomial, `none` for an unsupported block size. -/
def poly : Nat → Option Nat
  | 8 => some 0x1b
  | 16 => some 0x87
  | 32 => some 0x425
  | 64 => some 0x125
  | 128 => some 0x80043
  | _ => none

/-- `subtle.ConstantTimeSelect(v, x, y)` for v = 0 or 1 -/
def ctSelect (v : Byte) (x y : Nat) : Nat := if v = 1 then x else y

/-- cmac/cmac.go:89-93: one doubling; the constant is converted to a byte and added to the last byte. -/
def double (bs p : Nat) (src : Bytes) : Bytes :=
  let r := shift src
  r.1.set (bs - 1) (at8 r.1 (bs - 1) ^^^ BitVec.ofNat 8 (ctSelect r.2 p 0))

/-- cmac/cmac.go:57-96 `NewWithTagSize`; `none` is an error. -/
def newWithTagSize (bs : Nat) (E : Bytes → Bytes) (tagsize : Int) : Option Cmac :=
  if tagsize ≤ 0 ∨ tagsize > bs then none else
  match poly bs with
  | none => none
  | some p =>
    let k0 := E (zeros bs)
    let k0 := double bs p k0
    let k1 := double bs p k0
    some ⟨bs, E, k0, k1, zeros bs, 0, tagsize.toNat⟩
/-- cmac/cmac.go:51-53 `New` -/
def new (bs : Nat) (E : Bytes → Bytes) : Option Cmac := newWithTagSize bs E bs

/-- cmac/cmac.go:106-111 `Reset` -/
def Cmac.reset (d : Cmac) : Cmac := { d with buf := zeros d.buf.length, off := 0 }

/-- cmac/cmac.go:117-132: the part of Write that fills the buffer; `inr` is an early return. -/
def Cmac.fill (d : Cmac) (msg : Bytes) : (Cmac × Bytes) ⊕ Cmac :=
  if 0 < d.off then
    let dif := d.bs - d.off
    if dif < msg.length then
      .inl ({ d with buf := d.E (xorAt d.buf d.off (msg.take dif)), off := 0 }, msg.drop dif)
    else .inr { d with buf := xorAt d.buf d.off msg, off := d.off + msg.length }
  else .inl (d, msg)

/-- cmac/cmac.go:134-144: all blocks but the last.  `length & ^(bs-1)` is `length/bs*bs` for the supported block
sizes, which are powers of two. -/
def Cmac.blocks (d : Cmac) (msg : Bytes) : Cmac × Bytes :=
  if d.bs < msg.length then
    let nn := msg.length / d.bs * d.bs
    let nn := if msg.length = nn then nn - d.bs else nn
    ({ d with buf := (List.range (nn / d.bs)).foldl (fun b i => d.E (xorAt b 0 ((msg.drop (i * d.bs)).take d.bs))) d.buf }, msg.drop nn)
  else (d, msg)

/-- cmac/cmac.go:146-150 -/
def Cmac.tail (d : Cmac) (msg : Bytes) : Cmac :=
  if 0 < msg.length then { d with buf := xorAt d.buf d.off msg, off := d.off + msg.length } else d

/-- cmac/cmac.go:113-153 `Write` -/
def Cmac.write (d : Cmac) (msg : Bytes) : Cmac × Nat :=
  match d.fill msg with
  | .inr d => (d, msg.length)
  | .inl (d, rest) =>
    let r := d.blocks rest
    (r.1.tail r.2, msg.length)

/-- cmac/cmac.go:162-183 `checkSum`; it does not change the object. -/
def Cmac.checkSum (d : Cmac) : Bytes :=
  let hash := zeros d.bs
  let hash := if d.off < d.bs then goCopy hash 0 d.k1 else goCopy hash 0 d.k0
  let hash := xorAt hash 0 d.buf
  let hash := if d.off < d.bs then hash.set d.off (at8 hash d.off ^^^ 0x80#8) else hash
  (d.E hash).take d.tagsize

/-- The `hash.Hash` methods (cmac/cmac.go:98-160). -/
def impl : HashImpl Cmac where
  write d p := some (d.write p)
  sum d b := some (d, b ++ d.checkSum)
  reset := Cmac.reset
  size d := d.tagsize
  blockSize d := d.bs

/-- cmac/verify.go:9-17 `Sum` -/
def sum (msg : Bytes) (bs : Nat) (E : Bytes → Bytes) (tagsize : Int) : Option Bytes :=
  (newWithTagSize bs E tagsize).map fun h => (h.write msg).1.checkSum
/-- cmac/verify.go:22-29 `Verify`; `subtle.ConstantTimeCompare` is equality of byte strings. -/
def verify (mac msg : Bytes) (bs : Nat) (E : Bytes → Bytes) (tagsize : Int) : Bool :=
  match sum msg bs E tagsize with
  | none => false
  | some s => mac == s

end Verif.CMAC
