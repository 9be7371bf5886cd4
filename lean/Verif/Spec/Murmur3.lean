import Verif.Basic
/-
MurmurHash3_x86_32 and MurmurHash3_x64_128 (A. Appleby, smhasher/src/MurmurHash3.cpp, public domain).
A partial last block is read as a little-endian number, that is, padded with zero bytes.
-/
namespace Verif.Spec.Murmur3

namespace X86_32
def c1 : U32 := 0xcc9e2d51#32
def c2 : U32 := 0x1b873593#32
/-- The scrambling of a word of the message. -/
def scramble (k : U32) : U32 := (k * c1).rotateLeft 15 * c2
/-- One body block. -/
def body (h k : U32) : U32 := (h ^^^ scramble k).rotateLeft 13 * 5 + 0xe6546b64#32
def fmix32 (h : U32) : U32 :=
  let h := h ^^^ (h >>> 16)
  let h := h * 0x85ebca6b#32
  let h := h ^^^ (h >>> 13)
  let h := h * 0xc2b2ae35#32
  h ^^^ (h >>> 16)
end X86_32

open X86_32 in
def x86_32 (seed : U32) (m : Bytes) : U32 :=
  let h := ((fullBlocks 4 m).map getLE32).foldl body seed
  let t := restBlock 4 m
  let h := if t = [] then h else h ^^^ scramble (getLE32 (t ++ zeros (4 - t.length)))
  fmix32 (h ^^^ BitVec.ofNat 32 m.length)

namespace X64_128
def c1 : U64 := 0x87c37b91114253d5#64
def c2 : U64 := 0x4cf5ad432745937f#64
def scramble1 (k : U64) : U64 := (k * c1).rotateLeft 31 * c2
def scramble2 (k : U64) : U64 := (k * c2).rotateLeft 33 * c1
/-- One body block of 16 bytes. -/
def body (h : U64 × U64) (b : Bytes) : U64 × U64 :=
  let h1 := ((h.1 ^^^ scramble1 (getLE64 b 0)).rotateLeft 27 + h.2) * 5 + 0x52dce729#64
  let h2 := ((h.2 ^^^ scramble2 (getLE64 b 8)).rotateLeft 31 + h1) * 5 + 0x38495ab5#64
  (h1, h2)
def fmix64 (k : U64) : U64 :=
  let k := k ^^^ (k >>> 33)
  let k := k * 0xff51afd7ed558ccd#64
  let k := k ^^^ (k >>> 33)
  let k := k * 0xc4ceb9fe1a85ec53#64
  k ^^^ (k >>> 33)
end X64_128

open X64_128 in
def x64_128 (seed : U32) (m : Bytes) : U64 × U64 :=
  let h := (fullBlocks 16 m).foldl body (seed.setWidth 64, seed.setWidth 64)
  let t := restBlock 16 m
  let z := t ++ zeros (16 - t.length)
  let h1 := if 0 < t.length then h.1 ^^^ scramble1 (getLE64 z 0) else h.1
  let h2 := if 8 < t.length then h.2 ^^^ scramble2 (getLE64 z 8) else h.2
  let h1 := h1 ^^^ BitVec.ofNat 64 m.length
  let h2 := h2 ^^^ BitVec.ofNat 64 m.length
  let h1 := h1 + h2
  let h2 := h2 + h1
  let h1 := fmix64 h1
  let h2 := fmix64 h2
  let h1 := h1 + h2
  let h2 := h2 + h1
  (h1, h2)

end Verif.Spec.Murmur3
