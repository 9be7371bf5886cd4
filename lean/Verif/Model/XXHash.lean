import Verif.BufDigest
/-
Model of packages xxhash/xxhash32 and xxhash/xxhash64: digest.go, utils.go, sbox.go.
-/
namespace Verif.XXHash32

/-- xxhash/xxhash32/sbox.go:3-7 -/
def prime : List U32 := [0x9e3779b1#32, 0x85ebca77#32, 0xc2b2ae3d#32, 0x27d4eb2f#32, 0x165667b1#32]
def pr (i : Nat) : U32 := prime.getD i 0

/-- `s [4]uint32`, xxhash/xxhash32/digest.go:10 -/
structure S where
  (s0 s1 s2 s3 : U32)

/-- xxhash/xxhash32/utils.go:50-56 `round` -/
def round (acc input : U32) : U32 :=
  let acc := acc + input * pr 1
  let acc := acc.rotateLeft 13
  acc * pr 0
/-- xxhash/xxhash32/utils.go:58-66 `avalanche` -/
def avalanche (h : U32) : U32 :=
  let h := h ^^^ h >>> 15
  let h := h * pr 1
  let h := h ^^^ h >>> 13
  let h := h * pr 2
  h ^^^ h >>> 16
/-- xxhash/xxhash32/digest.go:114-121 `compress`, with utils.go:21-32 `bytesToUint32s` -/
def compress (s : S) (data : Bytes) : S :=
  let d i := getLE32 data (i * 4)
  ⟨round s.s0 (d 0), round s.s1 (d 1), round s.s2 (d 2), round s.s3 (d 3)⟩

/-- xxhash/xxhash32/digest.go:9-16; `seed` is set by the constructor only. -/
abbrev Digest := BufDigest S
/-- xxhash/xxhash32/digest.go:26-34 `Reset` (the buffer keeps its contents). -/
def reset (seed : U32) (d : Digest) : Digest :=
  { d with s := ⟨seed + pr 0 + pr 1, seed + pr 1, seed, seed - pr 0⟩, nx := 0, len := 0 }
/-- xxhash/xxhash32/digest.go:18-23 `newDigest` -/
def new (seed : U32) : Digest := reset seed { s := ⟨0, 0, 0, 0⟩, x := zeros 16, nx := 0, len := 0 }
/-- xxhash/xxhash32/digest.go:47-70 `Write` -/
def write (d : Digest) (p : Bytes) : Digest := d.absorb 16 compress p

/-- xxhash/xxhash32/digest.go:98-101, loop body -/
def tail4 (tmp w : U32) : U32 :=
  let tmp := tmp + w * pr 2
  tmp.rotateLeft 17 * pr 3
/-- xxhash/xxhash32/digest.go:103-106, loop body -/
def tail1 (tmp : U32) (b : Byte) : U32 :=
  let tmp := tmp + b.setWidth 32 * pr 4
  tmp.rotateLeft 11 * pr 0
/-- xxhash/xxhash32/digest.go:87-112 `Sum32`.  The first loop runs `n / 4` times, `p = 4 j`. -/
def sum32 (seed : U32) (d : Digest) : U32 :=
  let tmp : U32 := d.len.setWidth 32
  let tmp := if 16#64 ≤ d.len then
      tmp + (d.s.s0.rotateLeft 1 + d.s.s1.rotateLeft 7 + d.s.s2.rotateLeft 12 + d.s.s3.rotateLeft 18)
    else tmp + (seed + pr 4)
  let n := d.nx
  let tmp := forLoop 0 (n / 4) (fun tmp j => tail4 tmp (getLE32 d.x (4 * j))) tmp
  let tmp := forLoop (4 * (n / 4)) n (fun tmp p => tail1 tmp (at8 d.x p)) tmp
  avalanche tmp
/-- The methods; `Sum` and `checkSum` (xxhash/xxhash32/digest.go:72-84) put `Sum32` big-endian. -/
def impl (seed : U32) : HashImpl Digest where
  write d p := some (write d p, p.length)
  sum d b := some (d, b ++ be32 (sum32 seed d))
  reset := reset seed
  size _ := 4
  blockSize _ := 16
/-- xxhash/xxhash32/digest.go:123-129 `checksum` -/
def checksum (data : Bytes) (seed : U32) : U32 := sum32 seed (write (new seed) data)

end Verif.XXHash32

namespace Verif.XXHash64

/-- xxhash/xxhash64/sbox.go:3-7 -/
def prime : List U64 := [0x9e3779b185ebca87#64, 0xc2b2ae3d27d4eb4f#64, 0x165667b19e3779f9#64,
  0x85ebca77c2b2ae63#64, 0x27d4eb2f165667c5#64]
def pr (i : Nat) : U64 := prime.getD i 0

/-- `s [4]uint64`, xxhash/xxhash64/digest.go:10 -/
structure S where
  (s0 s1 s2 s3 : U64)

/-- xxhash/xxhash64/utils.go:54-59 `round` -/
def round (acc input : U64) : U64 :=
  let acc := acc + input * pr 1
  let acc := acc.rotateLeft 31
  acc * pr 0
/-- xxhash/xxhash64/utils.go:61-66 `mergeRound` -/
def mergeRound (acc val : U64) : U64 :=
  let val := round 0 val
  let acc := acc ^^^ val
  acc * pr 0 + pr 3
/-- xxhash/xxhash64/utils.go:68-75 `avalanche` -/
def avalanche (h : U64) : U64 :=
  let h := h ^^^ h >>> 33
  let h := h * pr 1
  let h := h ^^^ h >>> 29
  let h := h * pr 2
  h ^^^ h >>> 32
/-- xxhash/xxhash64/digest.go:126-133 `compress`, with utils.go:25-36 `bytesToUint64s` -/
def compress (s : S) (data : Bytes) : S :=
  let d i := getLE64 data (i * 8)
  ⟨round s.s0 (d 0), round s.s1 (d 1), round s.s2 (d 2), round s.s3 (d 3)⟩

/-- xxhash/xxhash64/digest.go:9-16; `seed` is set by the constructor only. -/
abbrev Digest := BufDigest S
/-- xxhash/xxhash64/digest.go:27-35 `Reset` (the buffer keeps its contents). -/
def reset (seed : U64) (d : Digest) : Digest :=
  { d with s := ⟨seed + pr 0 + pr 1, seed + pr 1, seed, seed - pr 0⟩, nx := 0, len := 0 }
/-- xxhash/xxhash64/digest.go:19-24 `newDigest` -/
def new (seed : U64) : Digest := reset seed { s := ⟨0, 0, 0, 0⟩, x := zeros 32, nx := 0, len := 0 }
/-- xxhash/xxhash64/digest.go:48-71 `Write` -/
def write (d : Digest) (p : Bytes) : Digest := d.absorb 32 compress p

/-- xxhash/xxhash64/digest.go:106-109, loop body -/
def tail8 (tmp w : U64) : U64 :=
  let tmp := tmp ^^^ (w * pr 1).rotateLeft 31 * pr 0
  tmp.rotateLeft 27 * pr 0 + pr 3
/-- xxhash/xxhash64/digest.go:111-116, body of the `if` -/
def tail4 (tmp : U64) (w : U32) : U64 :=
  let tmp := tmp ^^^ w.setWidth 64 * pr 0
  tmp.rotateLeft 23 * pr 1 + pr 2
/-- xxhash/xxhash64/digest.go:118-121, loop body -/
def tail1 (tmp : U64) (b : Byte) : U64 :=
  let tmp := tmp ^^^ b.setWidth 64 * pr 4
  tmp.rotateLeft 11 * pr 0
/-- xxhash/xxhash64/digest.go:88-124 `Sum64`.  The first loop runs `n / 8` times, `p = 8 j`. -/
def sum64 (seed : U64) (d : Digest) : U64 :=
  let tmp := if 32#64 ≤ d.len then
      let tmp := d.s.s0.rotateLeft 1 + d.s.s1.rotateLeft 7 + d.s.s2.rotateLeft 12 + d.s.s3.rotateLeft 18
      let tmp := mergeRound tmp d.s.s0
      let tmp := mergeRound tmp d.s.s1
      let tmp := mergeRound tmp d.s.s2
      let tmp := mergeRound tmp d.s.s3
      tmp + d.len
    else seed + pr 4 + d.len
  let n := d.nx
  let tmp := forLoop 0 (n / 8) (fun tmp j => tail8 tmp (getLE64 d.x (8 * j))) tmp
  let p := 8 * (n / 8)
  let r := if p + 4 ≤ n then (tail4 tmp (getLE32 ((d.x.drop p).take 4)), p + 4) else (tmp, p)
  let tmp := forLoop r.2 n (fun tmp p => tail1 tmp (at8 d.x p)) r.1
  avalanche tmp
/-- The methods; `Sum` and `checkSum` (xxhash/xxhash64/digest.go:73-85) put `Sum64` big-endian. -/
def impl (seed : U64) : HashImpl Digest where
  write d p := some (write d p, p.length)
  sum d b := some (d, b ++ be64 (sum64 seed d))
  reset := reset seed
  size _ := 8
  blockSize _ := 32
/-- xxhash/xxhash64/digest.go:135-141 `checksum` -/
def checksum (data : Bytes) (seed : U64) : U64 := sum64 seed (write (new seed) data)

end Verif.XXHash64
