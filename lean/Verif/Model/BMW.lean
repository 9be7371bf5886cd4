import Verif.Model.BMWCompress
import Verif.LoopBuf
import Verif.HashAPI
/-
Model of package bmw: digest256.go, digest512.go, bmw.go, utils.go, sbox.go.
The two digest types are the same program over words of 32 and of 64 bits, with their own compress (Model/BMWCompress.lean); the
object is written once over a record of the parts that differ.
-/
namespace Verif.BMW

/-- Reading an array (bounds are constants of the program, always met). -/
def rd {w} (l : List (BitVec w)) : Nat → BitVec w := fun i => l.getD i 0

/-- Run assignments one after another. -/
def exec {w} (st : List (Nat × ((Nat → BitVec w) → BitVec w))) (q : List (BitVec w)) : List (BitVec w) :=
  st.foldl (fun q s => q.set s.1 (s.2 (rd q))) q

/-- digest256.go:127-184.  The scratch array q lives in the object but is assigned before it is read; it starts from zeros here. -/
def compress256 (h m : List U32) : List U32 :=
  let q := exec (qStmts256.map fun s => (s.1, s.2 (rd m) (rd h))) (List.replicate 32 0)
  let xl := xl256 (rd q)
  let xh := xh256 xl (rd q)
  exec (hStmts256.map fun s => (s.1, s.2 xl xh (rd m) (rd q))) h

/-- digest512.go:129-263.  The scratch arrays q and w live in the object but are assigned before they are read; they start from zeros here. -/
def compress512 (h m : List U64) : List U64 :=
  let w := exec (wStmts512.map fun s => (s.1, fun _ => s.2 (rd m) (rd h))) (List.replicate 16 0)
  let q := exec (qStmts512.map fun s => (s.1, s.2 (rd m) (rd h) (rd w))) (List.replicate 32 0)
  let xl := xl512 (rd q)
  let xh := xh512 xl (rd q)
  exec (hStmts512.map fun s => (s.1, s.2 xl xh (rd m) (rd q))) h

/-- utils.go:24-35 -/
def bytesToUint32s (b : Bytes) : List U32 := (List.range (b.length / 4)).map fun i => getLE32 b (4 * i)
/-- utils.go:50-61 -/
def bytesToUint64s (b : Bytes) : List U64 := (List.range (b.length / 8)).map fun i => getLE64 b (8 * i)
/-- utils.go:37-48 -/
def uint32sToBytes (l : List U32) : Bytes := l.flatMap le32
/-- utils.go:63-74 -/
def uint64sToBytes (l : List U64) : Bytes := l.flatMap le64

/-- sbox.go:3-8 -/
def initVal224 : List U32 := [0x00010203, 0x04050607, 0x08090A0B, 0x0C0D0E0F, 0x10111213, 0x14151617, 0x18191A1B, 0x1C1D1E1F,
  0x20212223, 0x24252627, 0x28292A2B, 0x2C2D2E2F, 0x30313233, 0x34353637, 0x38393A3B, 0x3C3D3E3F]
/-- sbox.go:10-15 -/
def initVal256 : List U32 := [0x40414243, 0x44454647, 0x48494A4B, 0x4C4D4E4F, 0x50515253, 0x54555657, 0x58595A5B, 0x5C5D5E5F,
  0x60616263, 0x64656667, 0x68696A6B, 0x6C6D6E6F, 0x70717273, 0x74757677, 0x78797A7B, 0x7C7D7E7F]
/-- sbox.go:17-22 -/
def final256 : List U32 := [0xaaaaaaa0, 0xaaaaaaa1, 0xaaaaaaa2, 0xaaaaaaa3, 0xaaaaaaa4, 0xaaaaaaa5, 0xaaaaaaa6, 0xaaaaaaa7,
  0xaaaaaaa8, 0xaaaaaaa9, 0xaaaaaaaa, 0xaaaaaaab, 0xaaaaaaac, 0xaaaaaaad, 0xaaaaaaae, 0xaaaaaaaf]
/-- sbox.go:37-46 -/
def initVal384 : List U64 := [0x0001020304050607, 0x08090A0B0C0D0E0F, 0x1011121314151617, 0x18191A1B1C1D1E1F,
  0x2021222324252627, 0x28292A2B2C2D2E2F, 0x3031323334353637, 0x38393A3B3C3D3E3F,
  0x4041424344454647, 0x48494A4B4C4D4E4F, 0x5051525354555657, 0x58595A5B5C5D5E5F,
  0x6061626364656667, 0x68696A6B6C6D6E6F, 0x7071727374757677, 0x78797A7B7C7D7E7F]
/-- sbox.go:48-57 -/
def initVal512 : List U64 := [0x8081828384858687, 0x88898A8B8C8D8E8F, 0x9091929394959697, 0x98999A9B9C9D9E9F,
  0xA0A1A2A3A4A5A6A7, 0xA8A9AAABACADAEAF, 0xB0B1B2B3B4B5B6B7, 0xB8B9BABBBCBDBEBF,
  0xC0C1C2C3C4C5C6C7, 0xC8C9CACBCCCDCECF, 0xD0D1D2D3D4D5D6D7, 0xD8D9DADBDCDDDEDF,
  0xE0E1E2E3E4E5E6E7, 0xE8E9EAEBECEDEEEF, 0xF0F1F2F3F4F5F6F7, 0xF8F9FAFBFCFDFEFF]
/-- sbox.go:59-68 -/
def final512 : List U64 := [0xaaaaaaaaaaaaaaa0, 0xaaaaaaaaaaaaaaa1, 0xaaaaaaaaaaaaaaa2, 0xaaaaaaaaaaaaaaa3,
  0xaaaaaaaaaaaaaaa4, 0xaaaaaaaaaaaaaaa5, 0xaaaaaaaaaaaaaaa6, 0xaaaaaaaaaaaaaaa7,
  0xaaaaaaaaaaaaaaa8, 0xaaaaaaaaaaaaaaa9, 0xaaaaaaaaaaaaaaaa, 0xaaaaaaaaaaaaaaab,
  0xaaaaaaaaaaaaaaac, 0xaaaaaaaaaaaaaaad, 0xaaaaaaaaaaaaaaae, 0xaaaaaaaaaaaaaaaf]

/-- What digest256.go and digest512.go differ in. -/
structure Cfg (w : Nat) where
  limit : Nat
  compress : List (BitVec w) → List (BitVec w) → List (BitVec w)
  words : Bytes → List (BitVec w)
  bytes : List (BitVec w) → Bytes
  final : List (BitVec w)
  shift : Nat
/-- digest256.go:8, 118, 123-126 -/
def cfg256 : Cfg 32 := ⟨64, compress256, bytesToUint32s, uint32sToBytes, final256, 2⟩
/-- digest512.go:8, 120, 125-128 -/
def cfg512 : Cfg 64 := ⟨128, compress512, bytesToUint64s, uint64sToBytes, final512, 3⟩

/-- digest256.go:12-23, digest512.go:12-25 -/
structure Digest (w : Nat) where
  s : List (BitVec w)
  x : Bytes
  nx : Nat
  len : U64
  h2 : List (BitVec w)
  initVal : List (BitVec w)
  hs : Nat

variable {w : Nat} (c : Cfg w)

/-- digest256.go:35-49, digest512.go:37-52 -/
def reset (d : Digest w) : Digest w :=
  { d with x := zeros c.limit, s := goCopy (List.replicate 16 0) 0 d.initVal, nx := 0, len := 0, h2 := List.replicate 16 0 }
/-- digest256.go:26-33, digest512.go:28-35 -/
def newDigest (initVal : List (BitVec w)) (hs : Nat) : Digest w :=
  reset c { s := [], x := [], nx := 0, len := 0, h2 := [], initVal := goCopy (List.replicate 16 0) 0 initVal, hs := hs }

/-- digest256.go:122-125 -/
def processBlock (s : List (BitVec w)) (mm : Bytes) : List (BitVec w) := c.compress s (c.words mm)

/-- digest256.go:59-83, digest512.go:62-86 -/
def write (d : Digest w) (p : Bytes) : Digest w × Nat :=
  let r := loopWrite c.limit (fun (s : List (BitVec w) × U64) x xx => (processBlock c s.1 x, s.2 + BitVec.ofNat 64 xx * 8))
    (fun s plen => (s.1, s.2 + BitVec.ofNat 64 plen * 8)) (p.length + 1) (d.s, d.len) d.x d.nx p
  ({ d with s := r.1.1, len := r.1.2, x := r.2.1, nx := r.2.2 }, p.length)

/-- digest256.go:92-121, digest512.go:95-124 -/
def checkSum (d : Digest w) : Bytes :=
  let x := d.x.set d.nx 0x80
  let nx := d.nx + 1
  let r : List (BitVec w) × Bytes × Nat :=
    if nx > c.limit - 8 then
      let x := goCopy x nx (zeros c.limit)
      (processBlock c d.s x, x, 0)
    else (d.s, x, nx)
  let x := goCopy r.2.1 r.2.2 (zeros c.limit)
  let x := goCopy x (c.limit - 8) (le64 d.len)
  let s := processBlock c r.1 x
  let h2 := s
  let s := goCopy d.h2 0 c.final
  let s := c.compress s h2
  let outLen := d.hs >>> c.shift
  c.bytes (s.drop (16 - outLen))

/-- digest256.go:51-57, 85-90; digest512.go:54-60, 88-93.  Sum works on a copy. -/
def impl : HashImpl (Digest w) where
  write d p := some (write c d p)
  sum d b := some (d, b ++ checkSum c d)
  reset := reset c
  size d := d.hs
  blockSize _ := c.limit

/-- bmw.go:8-10 -/
def new224 : Digest 32 := newDigest cfg256 initVal224 28
/-- bmw.go:13-15 -/
def new256 : Digest 32 := newDigest cfg256 initVal256 32
/-- bmw.go:18-20 -/
def new384 : Digest 64 := newDigest cfg512 initVal384 48
/-- bmw.go:23-25 -/
def new512 : Digest 64 := newDigest cfg512 initVal512 64

/-- bmw.go:28-35, 38-45, 48-55, 58-65: Write then Sum on a new digest, copied to an array of the size. -/
def sumOf (d : Digest w) (size : Nat) (data : Bytes) : Bytes := goCopy (zeros size) 0 (checkSum c (write c d data).1)
end Verif.BMW
