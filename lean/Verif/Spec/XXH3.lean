import Verif.Basic
/-
XXH3 (64 and 128 bits), after the description of the algorithm in the xxHash project (xxhash_spec / xxhash.h, version 0.8).  Written without reference to the
Go code; tested below against vectors of the project.
-/
namespace Verif.Spec.XXH3

/-- The default secret (192 bytes, taken from FARSH). -/
def kSecret : Bytes := [
  0xb8, 0xfe, 0x6c, 0x39, 0x23, 0xa4, 0x4b, 0xbe, 0x7c, 0x01, 0x81, 0x2c, 0xf7, 0x21, 0xad, 0x1c,
  0xde, 0xd4, 0x6d, 0xe9, 0x83, 0x90, 0x97, 0xdb, 0x72, 0x40, 0xa4, 0xa4, 0xb7, 0xb3, 0x67, 0x1f,
  0xcb, 0x79, 0xe6, 0x4e, 0xcc, 0xc0, 0xe5, 0x78, 0x82, 0x5a, 0xd0, 0x7d, 0xcc, 0xff, 0x72, 0x21,
  0xb8, 0x08, 0x46, 0x74, 0xf7, 0x43, 0x24, 0x8e, 0xe0, 0x35, 0x90, 0xe6, 0x81, 0x3a, 0x26, 0x4c,
  0x3c, 0x28, 0x52, 0xbb, 0x91, 0xc3, 0x00, 0xcb, 0x88, 0xd0, 0x65, 0x8b, 0x1b, 0x53, 0x2e, 0xa3,
  0x71, 0x64, 0x48, 0x97, 0xa2, 0x0d, 0xf9, 0x4e, 0x38, 0x19, 0xef, 0x46, 0xa9, 0xde, 0xac, 0xd8,
  0xa8, 0xfa, 0x76, 0x3f, 0xe3, 0x9c, 0x34, 0x3f, 0xf9, 0xdc, 0xbb, 0xc7, 0xc7, 0x0b, 0x4f, 0x1d,
  0x8a, 0x51, 0xe0, 0x4b, 0xcd, 0xb4, 0x59, 0x31, 0xc8, 0x9f, 0x7e, 0xc9, 0xd9, 0x78, 0x73, 0x64,
  0xea, 0xc5, 0xac, 0x83, 0x34, 0xd3, 0xeb, 0xc3, 0xc5, 0x81, 0xa0, 0xff, 0xfa, 0x13, 0x63, 0xeb,
  0x17, 0x0d, 0xdd, 0x51, 0xb7, 0xf0, 0xda, 0x49, 0xd3, 0x16, 0x55, 0x26, 0x29, 0xd4, 0x68, 0x9e,
  0x2b, 0x16, 0xbe, 0x58, 0x7d, 0x47, 0xa1, 0xfc, 0x8f, 0xf8, 0xb8, 0xd1, 0x7a, 0xd0, 0x31, 0xce,
  0x45, 0xcb, 0x3a, 0x8f, 0x95, 0x16, 0x04, 0x28, 0xaf, 0xd7, 0xfb, 0xca, 0xbb, 0x4b, 0x40, 0x7e]

def P32_1 : U64 := 0x9E3779B1#64
def P32_2 : U64 := 0x85EBCA77#64
def P32_3 : U64 := 0xC2B2AE3D#64
def P64_1 : U64 := 0x9E3779B185EBCA87#64
def P64_2 : U64 := 0xC2B2AE3D27D4EB4F#64
def P64_3 : U64 := 0x165667B19E3779F9#64
def P64_4 : U64 := 0x85EBCA77C2B2AE63#64
def P64_5 : U64 := 0x27D4EB2F165667C5#64
def MX1 : U64 := 0x165667919E3779F9#64
def MX2 : U64 := 0x9FB21C651E98DF25#64

/-- The 128-bit product, (low, high). -/
def mul128 (a b : U64) : U64 × U64 :=
  let p : BitVec 128 := a.setWidth 128 * b.setWidth 128
  (p.extractLsb' 0 64, p.extractLsb' 64 64)
/-- Its two halves xored. -/
def mulFold (a b : U64) : U64 := (mul128 a b).1 ^^^ (mul128 a b).2

/-- The finaliser of XXH64, used for inputs of up to 3 bytes. -/
def avalanche64 (h : U64) : U64 :=
  let h := (h ^^^ h >>> 33) * P64_2
  let h := (h ^^^ h >>> 29) * P64_3
  h ^^^ h >>> 32
/-- The finaliser of XXH3. -/
def avalanche (h : U64) : U64 :=
  let h := (h ^^^ h >>> 37) * MX1
  h ^^^ h >>> 32

/-- The bytes of a word in the other order. -/
def swap64 (x : U64) : U64 := getBE64 (le64 x) 0
def swap32 (x : U32) : U32 := getBE32 (le32 x) 0

/-- Seed 0 gives the secret itself, other seeds are added to and subtracted from alternate words. -/
def derive (seed : U64) : Bytes :=
  (List.range 12).flatMap fun i => le64 (getLE64 kSecret (16 * i) + seed) ++ le64 (getLE64 kSecret (16 * i + 8) - seed)

/-- What the caller supplies: seed and secret for messages of up to 240 bytes, secret for longer ones. -/
structure Key where
  (seed : U64) (short long : Bytes)
/-- XXH3_64bits, XXH3_64bits_withSeed -/
def Key.ofSeed (s : U64) : Key := ⟨s, kSecret, derive s⟩
/-- XXH3_64bits_withSecret -/
def Key.ofSecret (b : Bytes) : Key := ⟨0#64, b, b⟩
/-- XXH3_64bits_withSecretandSeed -/
def Key.ofBoth (b : Bytes) (s : U64) : Key := ⟨s, kSecret, b⟩

/-- Messages of 1 to 3 bytes in one word. -/
def combine (m : Bytes) : U32 :=
  let n := m.length
  ((at8 m 0).setWidth 32 <<< 16) ||| ((at8 m (n / 2)).setWidth 32 <<< 24) ||| (at8 m (n - 1)).setWidth 32 ||| (BitVec.ofNat 32 n <<< 8)

def mixSeed (seed : U64) : U64 := seed ^^^ ((swap32 (seed.setWidth 32)).setWidth 64 <<< 32)

/-- 0 to 16 bytes; `fin` is the finaliser for up to 3. -/
def short64 (fin : U64 → U64) (sec : Bytes) (seed : U64) (m : Bytes) : U64 :=
  let n := m.length
  if n = 0 then fin (seed ^^^ (getLE64 sec 56 ^^^ getLE64 sec 64))
  else if n ≤ 3 then fin ((combine m).setWidth 64 ^^^ ((getLE32 sec 0 ^^^ getLE32 sec 4).setWidth 64 + seed))
  else if n ≤ 8 then
    let k := ((getLE32 m (n - 4)).setWidth 64 + ((getLE32 m 0).setWidth 64 <<< 32)) ^^^ ((getLE64 sec 8 ^^^ getLE64 sec 16) - mixSeed seed)
    let h := (k ^^^ (k.rotateLeft 49 ^^^ k.rotateLeft 24)) * MX2
    let h := (h ^^^ (h >>> 35 + BitVec.ofNat 64 n)) * MX2
    h ^^^ h >>> 28
  else
    let lo := getLE64 m 0 ^^^ ((getLE64 sec 24 ^^^ getLE64 sec 32) + seed)
    let hi := getLE64 m (n - 8) ^^^ ((getLE64 sec 40 ^^^ getLE64 sec 48) - seed)
    avalanche (BitVec.ofNat 64 n + swap64 lo + hi + mulFold lo hi)

/-- 16 bytes of the message at `i` with 16 bytes of the secret at `j`. -/
def mix16 (m : Bytes) (i : Nat) (sec : Bytes) (j : Nat) (seed : U64) : U64 :=
  mulFold (getLE64 m i ^^^ (getLE64 sec j + seed)) (getLE64 m (i + 8) ^^^ (getLE64 sec (j + 8) - seed))

/-- 17 to 240 bytes. -/
def mid64 (sec : Bytes) (seed : U64) (m : Bytes) : U64 :=
  let n := m.length
  let acc := BitVec.ofNat 64 n * P64_1
  if n ≤ 128 then
    avalanche (acc + ((List.range ((n - 1) / 32 + 1)).map fun k =>
      mix16 m (16 * k) sec (32 * k) seed + mix16 m (n - 16 * (k + 1)) sec (32 * k + 16) seed).sum)
  else
    avalanche (avalanche (acc + ((List.range 8).map fun k => mix16 m (16 * k) sec (16 * k) seed).sum)
      + (mix16 m (n - 16) sec (136 - 17) seed + ((List.range (n / 16 - 8)).map fun k => mix16 m (16 * (k + 8)) sec (16 * k + 3) seed).sum))

/-- The eight accumulators at the start. -/
def init : List U64 := [P32_3, P64_1, P64_2, P64_3, P64_4, P32_2, P64_5, P32_1]

/-- One 64-byte stripe with the secret from `j` on: lane `l` gets the data word of its neighbour and the product of the halves of its own keyed word. -/
def accumulate (A : List U64) (b : Bytes) (sec : Bytes) (j : Nat) : List U64 :=
  (List.range 8).map fun l =>
    let k := getLE64 b (8 * l) ^^^ getLE64 sec (j + 8 * l)
    A.getD l 0#64 + getLE64 b (8 * (l ^^^ 1)) + (k.setWidth 32).setWidth 64 * (k >>> 32)

/-- At the end of a block of stripes. -/
def scramble (A : List U64) (sec : Bytes) : List U64 :=
  (List.range 8).map fun l =>
    let a := A.getD l 0#64
    ((a ^^^ a >>> 47) ^^^ getLE64 sec (sec.length - 64 + 8 * l)) * P32_1

/-- Stripes per block. -/
def perBlock (sec : Bytes) : Nat := (sec.length - 64) / 8

/-- One more stripe; the state is the accumulators and the number of stripes in the current block. -/
def stripe (sec : Bytes) (st : List U64 × Nat) (b : Bytes) : List U64 × Nat :=
  let A := accumulate st.1 b sec (8 * st.2)
  if st.2 + 1 = perBlock sec then (scramble A sec, 0) else (A, st.2 + 1)

/-- The accumulators after a message of more than 240 bytes: all stripes that end before the last byte, then the last 64 bytes. -/
def longAcc (sec m : Bytes) : List U64 :=
  accumulate ((fullBlocks 64 (m.take (m.length - 1))).foldl (stripe sec) (init, 0)).1 (m.drop (m.length - 64)) sec (sec.length - 64 - 7)

def merge (A : List U64) (sec : Bytes) (j : Nat) (start : U64) : U64 :=
  avalanche (start + ((List.range 4).map fun i =>
    mulFold (A.getD (2 * i) 0#64 ^^^ getLE64 sec (j + 16 * i)) (A.getD (2 * i + 1) 0#64 ^^^ getLE64 sec (j + 16 * i + 8))).sum)

/-- XXH3 64 bits, with the finaliser for up to 3 bytes as a parameter. -/
def hash64With (fin : U64 → U64) (k : Key) (m : Bytes) : U64 :=
  if m.length ≤ 16 then short64 fin k.short k.seed m
  else if m.length ≤ 240 then mid64 k.short k.seed m
  else merge (longAcc k.long m) k.long 11 (BitVec.ofNat 64 m.length * P64_1)

/-- XXH3 64 bits. -/
def hash64 : Key → Bytes → U64 := hash64With avalanche64

/-- 128-bit values as (low, high). -/
abbrev W128 := U64 × U64

def short128 (fin : U64 → U64) (sec : Bytes) (seed : U64) (m : Bytes) : W128 :=
  let n := m.length
  if n = 0 then (fin (seed ^^^ (getLE64 sec 64 ^^^ getLE64 sec 72)), fin (seed ^^^ (getLE64 sec 80 ^^^ getLE64 sec 88)))
  else if n ≤ 3 then
    let c := combine m
    (fin (c.setWidth 64 ^^^ ((getLE32 sec 0 ^^^ getLE32 sec 4).setWidth 64 + seed)),
     fin (((swap32 c).rotateLeft 13).setWidth 64 ^^^ ((getLE32 sec 8 ^^^ getLE32 sec 12).setWidth 64 - seed)))
  else if n ≤ 8 then
    let k := ((getLE32 m 0).setWidth 64 + ((getLE32 m (n - 4)).setWidth 64 <<< 32)) ^^^ ((getLE64 sec 16 ^^^ getLE64 sec 24) + mixSeed seed)
    let p := mul128 k (P64_1 + BitVec.ofNat 64 (4 * n))
    let hi := p.2 + p.1 <<< 1
    let lo := p.1 ^^^ hi >>> 3
    let lo := (lo ^^^ lo >>> 35) * MX2
    (lo ^^^ lo >>> 28, avalanche hi)
  else
    let a := getLE64 m 0
    let b := getLE64 m (n - 8)
    let p := mul128 (a ^^^ b ^^^ ((getLE64 sec 32 ^^^ getLE64 sec 40) - seed)) P64_1
    let lo := p.1 + BitVec.ofNat 64 (n - 1) <<< 54
    let b := b ^^^ ((getLE64 sec 48 ^^^ getLE64 sec 56) + seed)
    let hi := p.2 + (b + (b.setWidth 32).setWidth 64 * (P32_2 - 1#64))
    let lo := lo ^^^ swap64 hi
    let q := mul128 lo P64_2
    (avalanche q.1, avalanche (q.2 + hi * P64_2))

/-- 16 bytes at `i` and 16 at `j` with 32 bytes of the secret at `t`. -/
def mix32 (acc : W128) (m : Bytes) (i j : Nat) (sec : Bytes) (t : Nat) (seed : U64) : W128 :=
  ((acc.1 + mix16 m i sec t seed) ^^^ (getLE64 m j + getLE64 m (j + 8)), (acc.2 + mix16 m j sec (t + 16) seed) ^^^ (getLE64 m i + getLE64 m (i + 8)))

def fin128 (acc : W128) (n : Nat) (seed : U64) : W128 :=
  (avalanche (acc.1 + acc.2), 0#64 - avalanche (acc.1 * P64_1 + acc.2 * P64_4 + (BitVec.ofNat 64 n - seed) * P64_2))

def mid128 (sec : Bytes) (seed : U64) (m : Bytes) : W128 :=
  let n := m.length
  let acc : W128 := (BitVec.ofNat 64 n * P64_1, 0#64)
  if n ≤ 128 then
    fin128 ((List.range ((n - 1) / 32 + 1)).reverse.foldl (fun a k => mix32 a m (16 * k) (n - 16 * (k + 1)) sec (32 * k) seed) acc) n seed
  else
    let a := (List.range 4).foldl (fun a k => mix32 a m (32 * k) (32 * k + 16) sec (32 * k) seed) acc
    let a := (avalanche a.1, avalanche a.2)
    let a := (List.range (n / 32 - 4)).foldl (fun a k => mix32 a m (32 * (k + 4)) (32 * (k + 4) + 16) sec (32 * k + 3) seed) a
    fin128 (mix32 a m (n - 16) (n - 32) sec (136 - 17 - 16) (0#64 - seed)) n seed

def hash128With (fin : U64 → U64) (k : Key) (m : Bytes) : W128 :=
  if m.length ≤ 16 then short128 fin k.short k.seed m
  else if m.length ≤ 240 then mid128 k.short k.seed m
  else
    let A := longAcc k.long m
    (merge A k.long 11 (BitVec.ofNat 64 m.length * P64_1), merge A k.long (k.long.length - 64 - 11) (~~~(BitVec.ofNat 64 m.length * P64_2)))

/-- XXH3 128 bits (XXH128). -/
def hash128 : Key → Bytes → W128 := hash128With avalanche64

/-- The message of the sanity check of the xxHash project. -/
def sanity (n : Nat) : Bytes :=
  ((List.range n).foldl (fun (s : Bytes × U64) _ => ((s.2 >>> 56).setWidth 8 :: s.1, s.2 * 11400714785074694797#64)) ([], 2654435761#64)).1.reverse

end Verif.Spec.XXH3
