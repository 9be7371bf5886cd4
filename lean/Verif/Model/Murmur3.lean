import Verif.HashAPI
/-
Model of package murmur3: digest.go, murmur32.go, murmur64.go, murmur128.go.
The `unsafe.Pointer` word loads are modelled as little-endian loads (amd64, arm64).
-/
namespace Verif.Murmur3

/-- murmur3/digest.go:9-15 with the fields `h1`, `h2` of digest32/digest128 in `h`.
`tail` is a view of the first bytes of `buf`, modelled by its value (`append(d.tail, ..)` writes only
into `buf`, and `tail` is always re-established by the copy on digest.go:48-49). `clen` is a Go `int`. -/
structure Digest (σ : Type) where
  h : σ
  tail : Bytes
  clen : U64

/-- murmur3/digest.go:27-52 `Write`, given the dispatched `Size()` and `bmix`. -/
def write {σ} (size : Nat) (bmix : σ → Bytes → σ × Bytes) (d : Digest σ) (p : Bytes) : Digest σ :=
  let clen := d.clen + BitVec.ofNat 64 p.length
  let (h, p) :=
    if 0 < d.tail.length then
      let nfree := size - d.tail.length
      if nfree < p.length then
        let block := d.tail ++ p.take nfree
        let p := p.drop nfree
        ((bmix d.h block).1, p)
      else (d.h, d.tail ++ p)
    else (d.h, p)
  let (h, tail) := bmix h p
  { h := h, tail := tail.take 16, clen := clen }

/-! ### 32 bits -/

/-- murmur3/murmur32.go:11-12 -/
def c1_32 : U32 := 0xcc9e2d51#32
def c2_32 : U32 := 0x1b873593#32

/-- murmur3/murmur32.go:60-70, loop body (also 133-142) -/
def step32 (h1 k1 : U32) : U32 :=
  let k1 := k1 * c1_32
  let k1 := (k1 <<< 15) ||| (k1 >>> 17)
  let k1 := k1 * c2_32
  let h1 := h1 ^^^ k1
  let h1 := (h1 <<< 13) ||| (h1 >>> 19)
  h1 * 4 + h1 + 0xe6546b64#32
/-- murmur3/murmur32.go:56-73 `bmix` -/
def bmix32 (h : U32) (p : Bytes) : U32 × Bytes :=
  let nblocks := p.length / 4
  (forLoop 0 nblocks (fun h i => step32 h (getLE32 p (i * 4))) h, p.drop (nblocks * 4))
/-- A case of a `switch` whose cases fall through downwards: executed when the tag is at least `k`. -/
def xorIf {w} (c : Prop) [Decidable c] (k v : BitVec w) : BitVec w := if c then k ^^^ v else k
/-- murmur3/murmur32.go:75-103 `Sum32` (the same code is at 144-170) -/
def fin32 (h1 : U32) (tail : Bytes) (clen : U64) : U32 :=
  let n := tail.length % 4
  let k1 : U32 := 0
  let k1 := xorIf (3 ≤ n) k1 ((at8 tail 2).setWidth 32 <<< 16)
  let k1 := xorIf (2 ≤ n) k1 ((at8 tail 1).setWidth 32 <<< 8)
  let h1 :=
    if 1 ≤ n then
      let k1 := k1 ^^^ (at8 tail 0).setWidth 32
      let k1 := k1 * c1_32
      let k1 := (k1 <<< 15) ||| (k1 >>> 17)
      let k1 := k1 * c2_32
      h1 ^^^ k1
    else h1
  let h1 := h1 ^^^ clen.setWidth 32
  let h1 := h1 ^^^ h1 >>> 16
  let h1 := h1 * 0x85ebca6b#32
  let h1 := h1 ^^^ h1 >>> 13
  let h1 := h1 * 0xc2b2ae35#32
  h1 ^^^ h1 >>> 16
def sum32 (d : Digest U32) : U32 := fin32 d.h d.tail d.clen
/-- murmur3/digest.go:21-25 `Reset`, murmur32.go:39-41 `reset` -/
def reset32 (seed : U32) (_ : Digest U32) : Digest U32 := { h := seed, tail := [], clen := 0 }
/-- murmur3/murmur32.go:27-33 `New32WithSeed` -/
def new32 (seed : U32) : Digest U32 := reset32 seed { h := 0, tail := [], clen := 0 }
/-- The methods of the object; murmur32.go:35-53 `Size`, `Sum`, `checkSum`; digest.go:17-19 `BlockSize`. -/
def impl32 (seed : U32) : HashImpl (Digest U32) where
  write d p := some (write 4 bmix32 d p, p.length)
  sum d b := some (d, b ++ be32 (sum32 d))
  reset := reset32 seed
  size _ := 4
  blockSize _ := 1
/-- murmur3/murmur32.go:123-171 `Sum32WithSeed` -/
def sum32WithSeed (data : Bytes) (seed : U32) : U32 :=
  let nblocks := data.length / 4
  let h1 := forLoop 0 nblocks (fun h i => step32 h (getLE32 data (i * 4))) seed
  let tail := data.drop (nblocks * 4)
  fin32 h1 tail (BitVec.ofNat 64 data.length)

/-! ### 128 bits -/

/-- murmur3/murmur128.go:8-11 -/
def c1_128 : U64 := 0x87c37b91114253d5#64
def c2_128 : U64 := 0x4cf5ad432745937f#64

/-- murmur3/murmur128.go:71-92, loop body -/
def step128 (h : U64 × U64) (k : U64 × U64) : U64 × U64 :=
  let (h1, h2) := h
  let (k1, k2) := k
  let k1 := k1 * c1_128
  let k1 := (k1 <<< 31) ||| (k1 >>> 33)
  let k1 := k1 * c2_128
  let h1 := h1 ^^^ k1
  let h1 := (h1 <<< 27) ||| (h1 >>> 37)
  let h1 := h1 + h2
  let h1 := h1 * 5 + 0x52dce729#64
  let k2 := k2 * c2_128
  let k2 := (k2 <<< 33) ||| (k2 >>> 31)
  let k2 := k2 * c1_128
  let h2 := h2 ^^^ k2
  let h2 := (h2 <<< 31) ||| (h2 >>> 33)
  let h2 := h2 + h1
  let h2 := h2 * 5 + 0x38495ab5#64
  (h1, h2)
/-- murmur3/murmur128.go:67-95 `bmix` -/
def bmix128 (h : U64 × U64) (p : Bytes) : (U64 × U64) × Bytes :=
  let nblocks := p.length / 16
  (forLoop 0 nblocks (fun h i => step128 h (getLE64 p (i * 16), getLE64 p (i * 16 + 8))) h, p.drop (nblocks * 16))
/-- murmur3/murmur128.go:175-182 `fmix64` -/
def fmix64 (k : U64) : U64 :=
  let k := k ^^^ k >>> 33
  let k := k * 0xff51afd7ed558ccd#64
  let k := k ^^^ k >>> 33
  let k := k * 0xc4ceb9fe1a85ec53#64
  k ^^^ k >>> 33
/-- murmur3/murmur128.go:97-173 `Sum128` -/
def sum128 (d : Digest (U64 × U64)) : U64 × U64 :=
  let h1 := d.h.1
  let h2 := d.h.2
  let n := d.tail.length % 16
  let k1 : U64 := 0
  let k2 : U64 := 0
  let k2 := xorIf (15 ≤ n) k2 ((at8 d.tail 14).setWidth 64 <<< 48)
  let k2 := xorIf (14 ≤ n) k2 ((at8 d.tail 13).setWidth 64 <<< 40)
  let k2 := xorIf (13 ≤ n) k2 ((at8 d.tail 12).setWidth 64 <<< 32)
  let k2 := xorIf (12 ≤ n) k2 ((at8 d.tail 11).setWidth 64 <<< 24)
  let k2 := xorIf (11 ≤ n) k2 ((at8 d.tail 10).setWidth 64 <<< 16)
  let k2 := xorIf (10 ≤ n) k2 ((at8 d.tail 9).setWidth 64 <<< 8)
  let h2 :=
    if 9 ≤ n then
      let k2 := k2 ^^^ (at8 d.tail 8).setWidth 64
      let k2 := k2 * c2_128
      let k2 := (k2 <<< 33) ||| (k2 >>> 31)
      let k2 := k2 * c1_128
      h2 ^^^ k2
    else h2
  let k1 := xorIf (8 ≤ n) k1 ((at8 d.tail 7).setWidth 64 <<< 56)
  let k1 := xorIf (7 ≤ n) k1 ((at8 d.tail 6).setWidth 64 <<< 48)
  let k1 := xorIf (6 ≤ n) k1 ((at8 d.tail 5).setWidth 64 <<< 40)
  let k1 := xorIf (5 ≤ n) k1 ((at8 d.tail 4).setWidth 64 <<< 32)
  let k1 := xorIf (4 ≤ n) k1 ((at8 d.tail 3).setWidth 64 <<< 24)
  let k1 := xorIf (3 ≤ n) k1 ((at8 d.tail 2).setWidth 64 <<< 16)
  let k1 := xorIf (2 ≤ n) k1 ((at8 d.tail 1).setWidth 64 <<< 8)
  let h1 :=
    if 1 ≤ n then
      let k1 := k1 ^^^ (at8 d.tail 0).setWidth 64
      let k1 := k1 * c1_128
      let k1 := (k1 <<< 31) ||| (k1 >>> 33)
      let k1 := k1 * c2_128
      h1 ^^^ k1
    else h1
  let h1 := h1 ^^^ d.clen
  let h2 := h2 ^^^ d.clen
  let h1 := h1 + h2
  let h2 := h2 + h1
  let h1 := fmix64 h1
  let h2 := fmix64 h2
  let h1 := h1 + h2
  let h2 := h2 + h1
  (h1, h2)
/-- murmur3/digest.go:21-25 `Reset`, murmur128.go:45-47 `reset` -/
def reset128 (seed : U32) (_ : Digest (U64 × U64)) : Digest (U64 × U64) :=
  { h := (seed.setWidth 64, seed.setWidth 64), tail := [], clen := 0 }
/-- murmur3/murmur128.go:33-39 `New128WithSeed`; murmur64.go:16-19 `New64WithSeed` is the same object. -/
def new128 (seed : U32) : Digest (U64 × U64) := reset128 seed { h := (0, 0), tail := [], clen := 0 }
/-- The methods of the object; murmur128.go:41-65 -/
def impl128 (seed : U32) : HashImpl (Digest (U64 × U64)) where
  write d p := some (write 16 bmix128 d p, p.length)
  sum d b := some (d, b ++ (be64 (sum128 d).1 ++ be64 (sum128 d).2))
  reset := reset128 seed
  size _ := 16
  blockSize _ := 1
/-- The methods of a `*digest64`; murmur64.go:21-39.  `Size` is promoted from the embedded
`bmixer`, which is the digest128, so it returns 16. -/
def impl64 (seed : U32) : HashImpl (Digest (U64 × U64)) where
  write d p := some (write 16 bmix128 d p, p.length)
  sum d b := some (d, b ++ be64 (sum128 d).1)
  reset := reset128 seed
  size _ := 16
  blockSize _ := 1
/-- murmur3/murmur128.go:204-210 `Sum128WithSeed` -/
def sum128WithSeed (data : Bytes) (seed : U32) : U64 × U64 :=
  let r := bmix128 (seed.setWidth 64, seed.setWidth 64) data
  sum128 { h := r.1, tail := r.2, clen := BitVec.ofNat 64 data.length }
/-- murmur3/murmur64.go:54-61 `Sum64WithSeed` -/
def sum64WithSeed (data : Bytes) (seed : U32) : U64 :=
  let r := bmix128 (seed.setWidth 64, seed.setWidth 64) data
  (sum128 { h := r.1, tail := r.2, clen := BitVec.ofNat 64 data.length }).1

end Verif.Murmur3
