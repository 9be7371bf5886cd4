import Verif.Basic
/-
XXH32 and XXH64, from "xxHash fast digest algorithm" (doc/xxhash_spec.md, version 0.2.0).
-/
namespace Verif.Spec.XXHash

/-! ### XXH32 -/
namespace X32
def P1 : U32 := 0x9E3779B1#32
def P2 : U32 := 0x85EBCA77#32
def P3 : U32 := 0xC2B2AE3D#32
def P4 : U32 := 0x27D4EB2F#32
def P5 : U32 := 0x165667B1#32

structure Acc where
  (a1 a2 a3 a4 : U32)

/-- Step 1. -/
def init (seed : U32) : Acc := ⟨seed + P1 + P2, seed + P2, seed + 0, seed - P1⟩
def round (acc lane : U32) : U32 := (acc + lane * P2).rotateLeft 13 * P1
/-- Step 2: a stripe of 16 bytes. -/
def stripe (a : Acc) (b : Bytes) : Acc :=
  ⟨round a.a1 (getLE32 b 0), round a.a2 (getLE32 b 4), round a.a3 (getLE32 b 8), round a.a4 (getLE32 b 12)⟩
/-- Step 3: convergence. -/
def converge (a : Acc) : U32 :=
  a.a1.rotateLeft 1 + a.a2.rotateLeft 7 + a.a3.rotateLeft 12 + a.a4.rotateLeft 18
/-- Step 5: four bytes, then single bytes. -/
def word4 (acc w : U32) : U32 := (acc + w * P3).rotateLeft 17 * P4
def byte1 (acc : U32) (b : Byte) : U32 := (acc + b.setWidth 32 * P5).rotateLeft 11 * P1
/-- Step 6. -/
def avalanche (acc : U32) : U32 :=
  let acc := acc ^^^ (acc >>> 15)
  let acc := acc * P2
  let acc := acc ^^^ (acc >>> 13)
  let acc := acc * P3
  acc ^^^ (acc >>> 16)
end X32

open X32 in
def xxh32 (seed : U32) (m : Bytes) : U32 :=
  let acc := if m.length < 16 then seed + P5 else converge ((fullBlocks 16 m).foldl stripe (init seed))
  let acc := acc + BitVec.ofNat 32 m.length
  let tail := restBlock 16 m
  let acc := ((fullBlocks 4 tail).map getLE32).foldl word4 acc
  let acc := (restBlock 4 tail).foldl byte1 acc
  avalanche acc

/-! ### XXH64 -/
namespace X64
def P1 : U64 := 0x9E3779B185EBCA87#64
def P2 : U64 := 0xC2B2AE3D27D4EB4F#64
def P3 : U64 := 0x165667B19E3779F9#64
def P4 : U64 := 0x85EBCA77C2B2AE63#64
def P5 : U64 := 0x27D4EB2F165667C5#64

structure Acc where
  (a1 a2 a3 a4 : U64)

def init (seed : U64) : Acc := ⟨seed + P1 + P2, seed + P2, seed + 0, seed - P1⟩
def round (acc lane : U64) : U64 := (acc + lane * P2).rotateLeft 31 * P1
/-- A stripe of 32 bytes. -/
def stripe (a : Acc) (b : Bytes) : Acc :=
  ⟨round a.a1 (getLE64 b 0), round a.a2 (getLE64 b 8), round a.a3 (getLE64 b 16), round a.a4 (getLE64 b 24)⟩
def merge (acc a : U64) : U64 := (acc ^^^ round 0 a) * P1 + P4
def converge (a : Acc) : U64 :=
  let acc := a.a1.rotateLeft 1 + a.a2.rotateLeft 7 + a.a3.rotateLeft 12 + a.a4.rotateLeft 18
  merge (merge (merge (merge acc a.a1) a.a2) a.a3) a.a4
def word8 (acc lane : U64) : U64 := (acc ^^^ round 0 lane).rotateLeft 27 * P1 + P4
def word4 (acc : U64) (lane : U32) : U64 := (acc ^^^ lane.setWidth 64 * P1).rotateLeft 23 * P2 + P3
def byte1 (acc : U64) (b : Byte) : U64 := (acc ^^^ b.setWidth 64 * P5).rotateLeft 11 * P1
def avalanche (acc : U64) : U64 :=
  let acc := acc ^^^ (acc >>> 33)
  let acc := acc * P2
  let acc := acc ^^^ (acc >>> 29)
  let acc := acc * P3
  acc ^^^ (acc >>> 32)
end X64

open X64 in
def xxh64 (seed : U64) (m : Bytes) : U64 :=
  let acc := if m.length < 32 then seed + P5 else converge ((fullBlocks 32 m).foldl stripe (init seed))
  let acc := acc + BitVec.ofNat 64 m.length
  let tail := restBlock 32 m
  let acc := ((fullBlocks 8 tail).map getLE64).foldl word8 acc
  let tail := restBlock 8 tail
  let acc := ((fullBlocks 4 tail).map getLE32).foldl word4 acc
  let acc := (restBlock 4 tail).foldl byte1 acc
  avalanche acc

end Verif.Spec.XXHash
