import Verif.HashAPI
/-
Model of package xxhash/xxh3: utils.go, digest64.go, digest128.go, xxh3_64.go, xxh3_128.go, sbox.go.
Slices `b[k:]` are `b.drop k`; the models only read inside the slices when secrets have at least 136 bytes (SECRET_SIZE_MIN), which the constructors enforce.
-/
namespace Verif.XXH3

/-- xxhash/xxh3/sbox.go:4-17 `kSecret` -/
def kSecret : Bytes := [
  0xb8, 0xfe, 0x6c, 0x39, 0x23, 0xa4, 0x4b, 0xbe, 0x7c, 0x01, 0x81, 0x2c, 0xf7, 0x21, 0xad, 0x1c,
  0xde, 0xd4, 0x6d, 0xe9, 0x83, 0x90, 0x97, 0xdb, 0x72, 0x40, 0xa4, 0xa4, 0xb7, 0xb3, 0x67, 0x1f,
  0xcb, 0x79, 0xe6, 0x4e, 0xcc, 0xc0, 0xe5, 0x78, 0x82, 0x5a, 0xd0, 0x7d, 0xcc, 0xff, 0x72, 0x21,
  0xb8, 0x08, 0x46, 0x74, 0xf7, 0x43, 0x24, 0x8e, 0xe0, 0x35, 0x90, 0xe6, 0x81, 0x3a, 0x26, 0x4c,
  0x3c, 0x28, 0x52, 0xbb, 0x91, 0xc3, 0x00, 0xcb, 0x88, 0xd0, 0x65, 0x8b, 0x1b, 0x53, 0x2e, 0xa3,
  0x71, 0x64, 0x48, 0x97, 0xa2, 0x0d, 0xf9, 0x4e, 0x38, 0x19, 0xef, 0x46, 0xa9, 0xde, 0xac, 0xd8,
  0xa8, 0xfa, 0x76, 0x3f, 0xe3, 0x9c, 0x34, 0x3f, 0xf9, 0xdc, 0xbb, 0xc7, 0xc7, 0x0b, 0x4f, 0x1d,
  0x8a, 0x51, 0xe0, 0x4b, 0xcd, 0xb4, 0x59, 0x31, 0xc8, 0x9f, 0x7e, 0xc9, 0xd9, 0x78, 0x73, 0x64,
  0xea, 0xc5, 0xac, 0x83, 0x34, 0xd3, 0xeb, 0xc3, 0xc5, 0x81, 0xa0, 0xff, 0xfa, 0x13, 0x63, 0xeb,
  0x17, 0x0d, 0xdd, 0x51, 0xb7, 0xf0, 0xda, 0x49, 0xd3, 0x16, 0x55, 0x26, 0x29, 0xd4, 0x68, 0x9e,
  0x2b, 0x16, 0xbe, 0x58, 0x7d, 0x47, 0xa1, 0xfc, 0x8f, 0xf8, 0xb8, 0xd1, 0x7a, 0xd0, 0x31, 0xce,
  0x45, 0xcb, 0x3a, 0x8f, 0x95, 0x16, 0x04, 0x28, 0xaf, 0xd7, 0xfb, 0xca, 0xbb, 0x4b, 0x40, 0x7e]

/-- xxhash/xxh3/sbox.go:19-38, the constants -/
def PRIME32_1 : U64 := 0x9E3779B1#64
def PRIME32_2 : U32 := 0x85EBCA77#32
def PRIME32_3 : U64 := 0xC2B2AE3D#64
def PRIME64_1 : U64 := 0x9E3779B185EBCA87#64
def PRIME64_2 : U64 := 0xC2B2AE3D27D4EB4F#64
def PRIME64_3 : U64 := 0x165667B19E3779F9#64
def PRIME64_4 : U64 := 0x85EBCA77C2B2AE63#64
def PRIME64_5 : U64 := 0x27D4EB2F165667C5#64
def PRIME_MX1 : U64 := 0x165667919E3779F9#64
def PRIME_MX2 : U64 := 0x9FB21C651E98DF25#64
/-- xxhash/xxh3/sbox.go:40-45 `INIT_ACC` -/
def INIT_ACC : List U64 := [PRIME32_3, PRIME64_1, PRIME64_2, PRIME64_3, PRIME64_4, PRIME32_2.setWidth 64, PRIME64_5, PRIME32_1]

/-- xxhash/xxh3/utils.go:70-75 `swap32` -/
def swap32 (x : U32) : U32 :=
  ((x <<< 24) &&& 0xff000000#32) ||| ((x <<< 8) &&& 0x00ff0000#32) ||| ((x >>> 8) &&& 0x0000ff00#32) ||| ((x >>> 24) &&& 0x000000ff#32)
/-- xxhash/xxh3/utils.go:77-86 `swap64` -/
def swap64 (x : U64) : U64 :=
  ((x <<< 56) &&& 0xff00000000000000#64) ||| ((x <<< 40) &&& 0x00ff000000000000#64) ||| ((x <<< 24) &&& 0x0000ff0000000000#64) |||
  ((x <<< 8) &&& 0x000000ff00000000#64) ||| ((x >>> 8) &&& 0x00000000ff000000#64) ||| ((x >>> 24) &&& 0x0000000000ff0000#64) |||
  ((x >>> 40) &&& 0x000000000000ff00#64) ||| ((x >>> 56) &&& 0x00000000000000ff#64)

/-- xxhash/xxh3/utils.go:90-92 -/
def xorshift64 (v : U64) (s : Nat) : U64 := v ^^^ (v >>> s)
/-- xxhash/xxh3/utils.go:94-100 -/
def rrmxmx (h64 len : U64) : U64 :=
  let h64 := h64 ^^^ (h64.rotateLeft 49 ^^^ h64.rotateLeft 24)
  let h64 := h64 * PRIME_MX2
  let h64 := h64 ^^^ ((h64 >>> 35) + len)
  let h64 := h64 * PRIME_MX2
  xorshift64 h64 28
/-- xxhash/xxh3/utils.go:102-107 -/
def avalanche (h64 : U64) : U64 :=
  let h64 := xorshift64 h64 37
  let h64 := h64 * PRIME_MX1
  xorshift64 h64 32
/-- xxhash/xxh3/utils.go:109-111 -/
def mult32to64 (x y : U32) : U64 := x.setWidth 64 * y.setWidth 64
/-- xxhash/xxh3/utils.go:113-115 -/
def mult32to64_add64 (lhs rhs : U32) (acc : U64) : U64 := mult32to64 lhs rhs + acc

/-- xxhash/xxh3/xxh3.go:8-10 `Uint128` -/
structure Uint128 where
  (low high : U64)
deriving DecidableEq

/-- xxhash/xxh3/utils.go:117-134 -/
def mult64to128 (lhs rhs : U64) : Uint128 :=
  let lo_lo := mult32to64 ((lhs &&& 0xFFFFFFFF#64).setWidth 32) ((rhs &&& 0xFFFFFFFF#64).setWidth 32)
  let hi_lo := mult32to64 ((lhs >>> 32).setWidth 32) ((rhs &&& 0xFFFFFFFF#64).setWidth 32)
  let lo_hi := mult32to64 ((lhs &&& 0xFFFFFFFF#64).setWidth 32) ((rhs >>> 32).setWidth 32)
  let hi_hi := mult32to64 ((lhs >>> 32).setWidth 32) ((rhs >>> 32).setWidth 32)
  let cross := (lo_lo >>> 32) + (hi_lo &&& 0xFFFFFFFF#64) + lo_hi
  let upper := (hi_lo >>> 32) + (cross >>> 32) + hi_hi
  let lower := (cross <<< 32) ||| (lo_lo &&& 0xFFFFFFFF#64)
  ⟨lower, upper⟩
/-- xxhash/xxh3/utils.go:136-139 -/
def mul128_fold64 (lhs rhs : U64) : U64 :=
  let product := mult64to128 lhs rhs
  product.low ^^^ product.high

/-- xxhash/xxh3/utils.go:143-154 `scalarRound` -/
def scalarRound (input secret : Bytes) (acc : List U64) (lane : Nat) : List U64 :=
  let data_val := getLE64 input (lane * 8)
  let data_key := data_val ^^^ getLE64 secret (lane * 8)
  let acc := acc.set (lane ^^^ 1) (acc.getD (lane ^^^ 1) 0#64 + data_val)
  acc.set lane (mult32to64_add64 (data_key.setWidth 32) ((data_key >>> 32).setWidth 32) (acc.getD lane 0#64))
/-- xxhash/xxh3/utils.go:156-160 -/
def accumulate_512 (acc : List U64) (input secret : Bytes) : List U64 := forLoop 0 8 (scalarRound input secret) acc
/-- xxhash/xxh3/utils.go:162-167 -/
def mix2Accs (acc : List U64) (secret : Bytes) : U64 :=
  mul128_fold64 (acc.getD 0 0#64 ^^^ getLE64 secret 0) (acc.getD 1 0#64 ^^^ getLE64 secret 8)
/-- xxhash/xxh3/utils.go:169-177 -/
def mergeAccs (acc : List U64) (secret : Bytes) (start : U64) : U64 :=
  avalanche (forLoop 0 4 (fun r i => r + mix2Accs (acc.drop (2 * i)) (secret.drop (16 * i))) start)
/-- xxhash/xxh3/utils.go:179-185 -/
def accumulate (acc : List U64) (input secret : Bytes) (nbStripes : Nat) : List U64 :=
  forLoop 0 nbStripes (fun acc n => accumulate_512 acc (input.drop (n * 64)) (secret.drop (n * 8))) acc
/-- xxhash/xxh3/utils.go:187-200 -/
def scalarScrambleRound (secret : Bytes) (acc : List U64) (lane : Nat) : List U64 :=
  let key64 := getLE64 secret (lane * 8)
  let acc64 := acc.getD lane 0#64
  let acc64 := xorshift64 acc64 47
  let acc64 := acc64 ^^^ key64
  let acc64 := acc64 * PRIME32_1
  acc.set lane acc64
/-- xxhash/xxh3/utils.go:202-206 -/
def scrambleAcc (acc : List U64) (secret : Bytes) : List U64 := forLoop 0 8 (scalarScrambleRound secret) acc

/-- xxhash/xxh3/utils.go:210-225 -/
def len_1to3_64b (input secret : Bytes) (seed : U64) : U64 :=
  let len := input.length
  let c1 := at8 input 0
  let c2 := at8 input (len / 2)
  let c3 := at8 input (len - 1)
  let combined : U32 := (c1.setWidth 32 <<< 16) ||| (c2.setWidth 32 <<< 24) ||| (c3.setWidth 32 <<< 0) ||| (BitVec.ofNat 32 len <<< 8)
  let bitflip := (getLE32 secret 0 ^^^ getLE32 secret 4).setWidth 64 + seed
  let keyed := combined.setWidth 64 ^^^ bitflip
  avalanche keyed
/-- xxhash/xxh3/utils.go:227-240 -/
def len_4to8_64b (input secret : Bytes) (seed : U64) : U64 :=
  let len := input.length
  let seed := seed ^^^ ((swap32 (seed.setWidth 32)).setWidth 64 <<< 32)
  let input1 := getLE32 input 0
  let input2 := getLE32 input (len - 4)
  let bitflip := (getLE64 secret 8 ^^^ getLE64 secret 16) - seed
  let input64 := input2.setWidth 64 + (input1.setWidth 64 <<< 32)
  let keyed := input64 ^^^ bitflip
  rrmxmx keyed (BitVec.ofNat 64 len)
/-- xxhash/xxh3/utils.go:242-255 -/
def len_9to16_64b (input secret : Bytes) (seed : U64) : U64 :=
  let len := input.length
  let bitflip1 := (getLE64 secret 24 ^^^ getLE64 secret 32) + seed
  let bitflip2 := (getLE64 secret 40 ^^^ getLE64 secret 48) - seed
  let input_lo := getLE64 input 0 ^^^ bitflip1
  let input_hi := getLE64 input (len - 8) ^^^ bitflip2
  let acc := BitVec.ofNat 64 len + swap64 input_lo + input_hi + mul128_fold64 input_lo input_hi
  avalanche acc
/-- xxhash/xxh3/utils.go:257-269 -/
def len_0to16_64b (input secret : Bytes) (seed : U64) : U64 :=
  if input.length > 8 then len_9to16_64b input secret seed
  else if input.length ≥ 4 then len_4to8_64b input secret seed
  else if input.length > 0 then len_1to3_64b input secret seed
  else avalanche (seed ^^^ (getLE64 secret 56 ^^^ getLE64 secret 64))
/-- xxhash/xxh3/utils.go:271-279 -/
def mix16B (input secret : Bytes) (seed64 : U64) : U64 :=
  let input_lo := getLE64 input 0
  let input_hi := getLE64 input 8
  mul128_fold64 (input_lo ^^^ (getLE64 secret 0 + seed64)) (input_hi ^^^ (getLE64 secret 8 - seed64))
/-- xxhash/xxh3/utils.go:281-305 -/
def len_17to128_64b (input secret : Bytes) (seed : U64) : U64 :=
  let len := input.length
  let acc := BitVec.ofNat 64 len * PRIME64_1
  let acc := if len > 32 then
      let acc := if len > 64 then
          let acc := if len > 96 then
              let acc := acc + mix16B (input.drop 48) (secret.drop 96) seed
              acc + mix16B (input.drop (len - 64)) (secret.drop 112) seed
            else acc
          let acc := acc + mix16B (input.drop 32) (secret.drop 64) seed
          acc + mix16B (input.drop (len - 48)) (secret.drop 80) seed
        else acc
      let acc := acc + mix16B (input.drop 16) (secret.drop 32) seed
      acc + mix16B (input.drop (len - 32)) (secret.drop 48) seed
    else acc
  let acc := acc + mix16B (input.drop 0) (secret.drop 0) seed
  let acc := acc + mix16B (input.drop (len - 16)) (secret.drop 16) seed
  avalanche acc
/-- xxhash/xxh3/utils.go:307-330 -/
def len_129to240_64b (input secret : Bytes) (seed : U64) : U64 :=
  let len := input.length
  let acc := BitVec.ofNat 64 len * PRIME64_1
  let nbRounds := len / 16
  let acc := forLoop 0 8 (fun acc i => acc + mix16B (input.drop (16 * i)) (secret.drop (16 * i)) seed) acc
  let acc_end := mix16B (input.drop (len - 16)) (secret.drop (136 - 17)) seed
  let acc := avalanche acc
  let acc_end := forLoop 8 nbRounds (fun acc_end i => acc_end + mix16B (input.drop (16 * i)) (secret.drop (16 * (i - 8) + 3)) seed) acc_end
  avalanche (acc + acc_end)

/-- xxhash/xxh3/utils.go:334-358 -/
def len_1to3_128b (data secret : Bytes) (seed : U64) : Uint128 :=
  let c1 := at8 data 0
  let c2 := at8 data (data.length / 2)
  let c3 := at8 data (data.length - 1)
  let len := data.length
  let combinedl : U32 := (c1.setWidth 32 <<< 16) ||| (c2.setWidth 32 <<< 24) ||| (c3.setWidth 32 <<< 0) ||| (BitVec.ofNat 32 len <<< 8)
  let combinedh := (swap32 combinedl).rotateLeft 13
  let bitflipl := (getLE32 secret 0 ^^^ getLE32 secret 4).setWidth 64 + seed
  let bitfliph := (getLE32 secret 8 ^^^ getLE32 secret 12).setWidth 64 - seed
  let keyed_lo := combinedl.setWidth 64 ^^^ bitflipl
  let keyed_hi := combinedh.setWidth 64 ^^^ bitfliph
  ⟨avalanche keyed_lo, avalanche keyed_hi⟩
/-- xxhash/xxh3/utils.go:360-384 (in Go `^` and `+` have the same precedence) -/
def len_4to8_128b (input secret : Bytes) (seed : U64) : Uint128 :=
  let seed := seed ^^^ ((swap32 (seed.setWidth 32)).setWidth 64 <<< 32)
  let len := input.length
  let input_lo := getLE32 input 0
  let input_hi := getLE32 input (len - 4)
  let input_64 := input_lo.setWidth 64 + (input_hi.setWidth 64 <<< 32)
  let bitflip := (getLE64 secret 16 ^^^ getLE64 secret 24) + seed
  let keyed := input_64 ^^^ bitflip
  let m128 := mult64to128 keyed (PRIME64_1 + BitVec.ofNat 64 (len <<< 2))
  let high := m128.high + (m128.low <<< 1)
  let low := m128.low ^^^ (high >>> 3)
  let low := xorshift64 low 35
  let low := low * PRIME_MX2
  let low := xorshift64 low 28
  let high := avalanche high
  ⟨low, high⟩
/-- xxhash/xxh3/utils.go:386-413 (in Go `^`, `+` and `-` have the same precedence) -/
def len_9to16_128b (input secret : Bytes) (seed : U64) : Uint128 :=
  let len := input.length
  let bitflipl := (getLE64 secret 32 ^^^ getLE64 secret 40) - seed
  let bitfliph := (getLE64 secret 48 ^^^ getLE64 secret 56) + seed
  let input_lo := getLE64 input 0
  let input_hi := getLE64 input (len - 8)
  let m128 := mult64to128 (input_lo ^^^ input_hi ^^^ bitflipl) PRIME64_1
  let low := m128.low + (BitVec.ofNat 64 (len - 1) <<< 54)
  let input_hi := input_hi ^^^ bitfliph
  let high := m128.high + (input_hi + mult32to64 (input_hi.setWidth 32) (PRIME32_2 - 1#32))
  let low := low ^^^ swap64 high
  let h128 := mult64to128 low PRIME64_2
  let hhigh := h128.high + high * PRIME64_2
  ⟨avalanche h128.low, avalanche hhigh⟩
/-- xxhash/xxh3/utils.go:415-435 -/
def len_0to16_128b (input secret : Bytes) (seed : U64) : Uint128 :=
  let len := input.length
  if len > 8 then len_9to16_128b input secret seed
  else if len ≥ 4 then len_4to8_128b input secret seed
  else if len > 0 then len_1to3_128b input secret seed
  else
    let bitflipl := getLE64 secret 64 ^^^ getLE64 secret 72
    let bitfliph := getLE64 secret 80 ^^^ getLE64 secret 88
    ⟨avalanche (seed ^^^ bitflipl), avalanche (seed ^^^ bitfliph)⟩
/-- xxhash/xxh3/utils.go:437-449 -/
def mix32B (acc : Uint128) (input_1 input_2 secret : Bytes) (seed : U64) : Uint128 :=
  let low := acc.low + mix16B input_1 (secret.drop 0) seed
  let low := low ^^^ (getLE64 input_2 0 + getLE64 input_2 8)
  let high := acc.high + mix16B input_2 (secret.drop 16) seed
  let high := high ^^^ (getLE64 input_1 0 + getLE64 input_1 8)
  ⟨low, high⟩
/-- xxhash/xxh3/utils.go:470-479 and 522-530, the common end of the two functions below -/
def finish128 (acc : Uint128) (len : Nat) (seed : U64) : Uint128 :=
  let low := acc.low + acc.high
  let high := (acc.low * PRIME64_1) + (acc.high * PRIME64_4) + ((BitVec.ofNat 64 len - seed) * PRIME64_2)
  ⟨avalanche low, 0#64 - avalanche high⟩
/-- xxhash/xxh3/utils.go:451-480 -/
def len_17to128_128b (input secret : Bytes) (seed : U64) : Uint128 :=
  let len := input.length
  let acc : Uint128 := ⟨BitVec.ofNat 64 len * PRIME64_1, 0#64⟩
  let acc := if len > 32 then
      let acc := if len > 64 then
          let acc := if len > 96 then mix32B acc (input.drop 48) (input.drop (len - 64)) (secret.drop 96) seed else acc
          mix32B acc (input.drop 32) (input.drop (len - 48)) (secret.drop 64) seed
        else acc
      mix32B acc (input.drop 16) (input.drop (len - 32)) (secret.drop 32) seed
    else acc
  let acc := mix32B acc input (input.drop (len - 16)) secret seed
  finish128 acc len seed
/-- xxhash/xxh3/utils.go:482-531. The loops count `i` in steps of 32: `i = 32 (j + 1)`; the second runs while `i ≤ len`, that is for `j < len / 32`. -/
def len_129to240_128b (input secret : Bytes) (seed : U64) : Uint128 :=
  let len := input.length
  let acc : Uint128 := ⟨BitVec.ofNat 64 len * PRIME64_1, 0#64⟩
  let acc := forLoop 0 4 (fun acc j => let i := 32 * (j + 1)
    mix32B acc (input.drop (i - 32)) (input.drop (i - 16)) (secret.drop (i - 32)) seed) acc
  let acc : Uint128 := ⟨avalanche acc.low, avalanche acc.high⟩
  let acc := forLoop 4 (len / 32) (fun acc j => let i := 32 * (j + 1)
    mix32B acc (input.drop (i - 32)) (input.drop (i - 16)) (secret.drop (3 + i - 160)) seed) acc
  let acc := mix32B acc (input.drop (len - 16)) (input.drop (len - 32)) (secret.drop (136 - 17 - 16)) (0#64 - seed)
  finish128 acc len seed
/-- xxhash/xxh3/utils.go:533-551 -/
def mergeAccs_128b (acc : List U64) (secret : Bytes) (length : U64) : Uint128 :=
  ⟨mergeAccs acc (secret.drop 11) (length * PRIME64_1),
   mergeAccs acc (secret.drop (secret.length - acc.length * 8 - 11)) (~~~(length * PRIME64_2))⟩

/-- xxhash/xxh3/utils.go:554-566 `GenCustomSecret` -/
def GenCustomSecret (customSecret : Bytes) (seed64 : U64) : Bytes :=
  forLoop 0 (192 / 16) (fun c i =>
    let lo := getLE64 kSecret (16 * i) + seed64
    let hi := getLE64 kSecret (16 * i + 8) - seed64
    let c := goCopy c (16 * i) (le64 lo)
    goCopy c (16 * i + 8) (le64 hi)) customSecret

/-- xxhash/xxh3/utils.go:568-594 -/
def hashLong_internal_loop (acc : List U64) (input secret : Bytes) : List U64 :=
  let secretSize := secret.length
  let length := input.length
  let nbStripesPerBlock := (secretSize - 64) / 8
  let block_len := 64 * nbStripesPerBlock
  let nb_blocks := (length - 1) / block_len
  let acc := forLoop 0 nb_blocks (fun acc n =>
    let acc := accumulate acc (input.drop (n * block_len)) secret nbStripesPerBlock
    scrambleAcc acc (secret.drop (secretSize - 64))) acc
  let nbStripes := ((length - 1) - (block_len * nb_blocks)) / 64
  let acc := accumulate acc (input.drop (nb_blocks * block_len)) secret nbStripes
  if length % 64 ≠ 0 then
    let p := input.drop (length - 64)
    accumulate_512 acc p (secret.drop (secretSize - 64 - 7))
  else acc

/-- xxhash/xxh3/utils.go:596-620; returns the accumulators and the new `nbStripesSoFar` -/
def consumeStripes (acc : List U64) (stripesSoFar nbStripesPerBlock : Nat) (p : Bytes) (stripes : Nat) (secret : Bytes) (secretLimit : Nat) : List U64 × Nat :=
  if nbStripesPerBlock - stripesSoFar ≤ stripes then
    let stripesToEndOfBlock := nbStripesPerBlock - stripesSoFar
    let stripesAfterBlock := stripes - stripesToEndOfBlock
    let acc := accumulate acc p (secret.drop (stripesSoFar * 8)) stripesToEndOfBlock
    let acc := scrambleAcc acc (secret.drop secretLimit)
    let acc := accumulate acc (p.drop (stripesToEndOfBlock * 64)) secret stripesAfterBlock
    (acc, stripesAfterBlock)
  else
    (accumulate acc p (secret.drop (stripesSoFar * 8)) stripes, stripesSoFar + stripes)

/-- xxhash/xxh3/utils.go:624-634 -/
def hashLong64 (acc : List U64) (input secret : Bytes) : U64 :=
  mergeAccs (hashLong_internal_loop acc input secret) (secret.drop 11) (BitVec.ofNat 64 input.length * PRIME64_1)
/-- xxhash/xxh3/utils.go:636-645 -/
def hashLong64_withSecret (input : Bytes) (_seed : U64) (secret : Bytes) : U64 := hashLong64 INIT_ACC input secret
/-- xxhash/xxh3/utils.go:647-656 -/
def hashLong64_default (input : Bytes) (_seed : U64) (_secret : Bytes) : U64 := hashLong64 INIT_ACC input kSecret
/-- xxhash/xxh3/utils.go:658-682 -/
def hashLong64_withSeed (input : Bytes) (seed : U64) (_secret : Bytes) : U64 :=
  if seed = 0#64 then hashLong64 INIT_ACC input kSecret else hashLong64 INIT_ACC input (GenCustomSecret (zeros 192) seed)
/-- xxhash/xxh3/utils.go:686-707 -/
def Hash_64bits_internal (input : Bytes) (seed64 : U64) (secret : Bytes) (f_hashLong : Bytes → U64 → Bytes → U64) : U64 :=
  if input.length ≤ 16 then len_0to16_64b input secret seed64
  else if input.length ≤ 128 then len_17to128_64b input secret seed64
  else if input.length ≤ 240 then len_129to240_64b input secret seed64
  else f_hashLong input seed64 secret
/-- xxhash/xxh3/utils.go:709-711 -/
def Hash_64bits (input : Bytes) : U64 := Hash_64bits_internal input 0#64 kSecret hashLong64_default
/-- xxhash/xxh3/utils.go:713-715 -/
def Hash_64bits_withSecret (input secret : Bytes) : U64 := Hash_64bits_internal input 0#64 secret hashLong64_withSecret
/-- xxhash/xxh3/utils.go:717-719 -/
def Hash_64bits_withSeed (input : Bytes) (seed : U64) : U64 := Hash_64bits_internal input seed kSecret hashLong64_withSeed
/-- xxhash/xxh3/utils.go:721-732; the nil function is never called -/
def Hash_64bits_withSecretandSeed (input secret : Bytes) (seed : U64) : U64 :=
  if input.length ≤ 240 then Hash_64bits_internal input seed kSecret fun _ _ _ => 0#64 else hashLong64_withSecret input seed secret

/-- xxhash/xxh3/utils.go:736-744 -/
def hashLong128 (acc : List U64) (input secret : Bytes) : Uint128 :=
  mergeAccs_128b (hashLong_internal_loop acc input secret) secret (BitVec.ofNat 64 input.length)
/-- xxhash/xxh3/utils.go:757-766 -/
def hashLong128_withSecret (input : Bytes) (_seed : U64) (secret : Bytes) : Uint128 := hashLong128 INIT_ACC input secret
/-- xxhash/xxh3/utils.go:746-755 -/
def hashLong128_default (input : Bytes) (_seed : U64) (_secret : Bytes) : Uint128 := hashLong128 INIT_ACC input kSecret
/-- xxhash/xxh3/utils.go:768-792 -/
def hashLong128_withSeed (input : Bytes) (seed : U64) (_secret : Bytes) : Uint128 :=
  if seed = 0#64 then hashLong128 INIT_ACC input kSecret else hashLong128 INIT_ACC input (GenCustomSecret (zeros 192) seed)
/-- xxhash/xxh3/utils.go:796-815 -/
def Hash_128bits_internal (input : Bytes) (seed64 : U64) (secret : Bytes) (f_hl128 : Bytes → U64 → Bytes → Uint128) : Uint128 :=
  if input.length ≤ 16 then len_0to16_128b input secret seed64
  else if input.length ≤ 128 then len_17to128_128b input secret seed64
  else if input.length ≤ 240 then len_129to240_128b input secret seed64
  else f_hl128 input seed64 secret
/-- xxhash/xxh3/utils.go:817-819 -/
def Hash_128bits (input : Bytes) : Uint128 := Hash_128bits_internal input 0#64 kSecret hashLong128_default
/-- xxhash/xxh3/utils.go:821-823 -/
def Hash_128bits_withSecret (input secret : Bytes) : Uint128 := Hash_128bits_internal input 0#64 secret hashLong128_withSecret
/-- xxhash/xxh3/utils.go:825-827 -/
def Hash_128bits_withSeed (input : Bytes) (seed : U64) : Uint128 := Hash_128bits_internal input seed kSecret hashLong128_withSeed
/-- xxhash/xxh3/utils.go:829-840; the nil function is never called -/
def Hash_128bits_withSecretandSeed (input secret : Bytes) (seed : U64) : Uint128 :=
  if input.length ≤ 240 then Hash_128bits_internal input seed kSecret fun _ _ _ => ⟨0#64, 0#64⟩ else hashLong128_withSecret input seed secret

/-- xxhash/xxh3/digest64.go:10-22 and digest128.go:10-22 (the same fields). `secretLimit` and `nbStripesPerBlock` are natural numbers here: the constructors
only make digests with secrets of at least 136 bytes. -/
structure Digest where
  s : List U64
  x : Bytes
  nx : Nat
  len : U64
  seed : U64
  secret : Bytes
  secretLimit : Nat
  nbStripesSoFar : Nat
  nbStripesPerBlock : Nat
deriving DecidableEq

/-- xxhash/xxh3/digest64.go:37-49 `Reset` -/
def Digest.reset (d : Digest) : Digest :=
  { d with x := zeros 256, nx := 0, len := 0#64, s := goCopy d.s 0 INIT_ACC, secretLimit := d.secret.length - 64, nbStripesSoFar := 0,
           nbStripesPerBlock := (d.secret.length - 64) / 8 }
/-- xxhash/xxh3/digest64.go:25-35 `newDigest64` -/
def newDigest (seed : U64) (secret : Bytes) : Digest :=
  Digest.reset { s := List.replicate 8 0#64, x := zeros 256, nx := 0, len := 0#64, seed := seed, secret := goCopy (zeros secret.length) 0 secret,
                 secretLimit := 0, nbStripesSoFar := 0, nbStripesPerBlock := 0 }

/-- xxhash/xxh3/digest64.go:78-97, `if d.nx > 0 {...}`; returns the digest and the rest of `p` -/
def Digest.fill (d : Digest) (p : Bytes) : Digest × Bytes :=
  if d.nx > 0 then
    let loadSize := 256 - d.nx
    let x := goCopy d.x d.nx (p.take loadSize)
    let p := p.drop loadSize
    let c := consumeStripes d.s d.nbStripesSoFar d.nbStripesPerBlock x 4 d.secret d.secretLimit
    ({ d with x := x, s := c.1, nbStripesSoFar := c.2, nx := 0 }, p)
  else (d, p)
/-- xxhash/xxh3/digest64.go:100-112, `for len(p) - BlockSize64 > 0 {...}`; `fuel` bounds the number of rounds -/
def Digest.loop : Nat → Digest → Bytes → Digest × Bytes
  | 0, d, p => (d, p)
  | fuel + 1, d, p =>
    if p.length > 256 then
      let c := consumeStripes d.s d.nbStripesSoFar d.nbStripesPerBlock p 4 d.secret d.secretLimit
      Digest.loop fuel { d with s := c.1, nbStripesSoFar := c.2 } (p.drop 256)
    else (d, p)
/-- xxhash/xxh3/digest64.go:59-121 `Write`. `none` is a panic: `pp[offset-STRIPE_LEN:]` with `offset < STRIPE_LEN` (digest64.go:116). -/
def Digest.write (d : Digest) (p : Bytes) : Option (Digest × Nat) :=
  let nn := p.length
  let d := { d with len := d.len + BitVec.ofNat 64 nn }
  if p.length = 0 then some (d, nn)
  else
    let pp := p
    if p.length ≤ 256 - d.nx then some ({ d with x := goCopy d.x d.nx p, nx := d.nx + p.length }, nn)
    else
      let f := d.fill p
      let d := f.1
      let p := f.2
      if p.length ≥ 256 then
        let l := d.loop p.length p
        let d := l.1
        let p := l.2
        let offset := pp.length - p.length
        if offset < 64 then none
        else
          let x := goCopy d.x (256 - 64) (pp.drop (offset - 64))
          some ({ d with x := goCopy x 0 p, nx := min 256 p.length }, nn)
      else some ({ d with x := goCopy d.x 0 p, nx := min 256 p.length }, nn)

/-- xxhash/xxh3/digest64.go:158-195 `hashLong` -/
def Digest.hashLong (d : Digest) : List U64 :=
  let secret := d.secret
  let acc := d.s
  if d.nx ≥ 64 then
    let nbStripes := (d.nx - 1) / 64
    let c := consumeStripes acc d.nbStripesSoFar d.nbStripesPerBlock (d.x.take d.nx) nbStripes secret d.secretLimit
    let lastStripePtr := (d.x.take d.nx).drop (d.nx - 64)
    accumulate_512 c.1 lastStripePtr (secret.drop (d.secretLimit - 7))
  else
    let catchupSize := 64 - d.nx
    let lastStripe := goCopy (zeros 64) 0 (d.x.drop (d.x.length - catchupSize))
    let lastStripe := goCopy lastStripe catchupSize (d.x.take d.nx)
    accumulate_512 acc lastStripe (secret.drop (d.secretLimit - 7))

/-- xxhash/xxh3/digest64.go:137-156 `Sum64` -/
def Digest.Sum64 (d : Digest) : U64 :=
  if d.len > 240#64 then mergeAccs d.hashLong (d.secret.drop 11) (d.len * PRIME64_1)
  else if d.seed ≠ 0#64 then Hash_64bits_withSeed (d.x.take d.nx) d.seed
  else Hash_64bits_withSecret (d.x.take d.nx) (d.secret.take (d.secretLimit + 64))
/-- xxhash/xxh3/digest128.go:138-153 `Sum128` -/
def Digest.Sum128 (d : Digest) : Uint128 :=
  if d.len > 240#64 then mergeAccs_128b d.hashLong d.secret d.len
  else if d.seed ≠ 0#64 then Hash_128bits_withSeed (d.x.take d.nx) d.seed
  else Hash_128bits_withSecret (d.x.take d.nx) (d.secret.take (d.secretLimit + 64))
/-- xxhash/xxh3/xxh3.go:12-17 `Bytes` -/
def Uint128.bytes (u : Uint128) : Bytes := be64 u.high ++ be64 u.low

/-- digest64's methods; `Sum` (digest64.go:123-135) works on a copy. -/
def impl64 : HashImpl Digest where
  write := Digest.write
  sum d b := some (d, b ++ be64 d.Sum64)
  reset := Digest.reset
  size _ := 8
  blockSize _ := 256
/-- digest128's methods; `Sum` (digest128.go:123-136) works on a copy. -/
def impl128 : HashImpl Digest where
  write := Digest.write
  sum d b := some (d, b ++ d.Sum128.bytes)
  reset := Digest.reset
  size _ := 16
  blockSize _ := 256

/-- xxhash/xxh3/xxh3_64.go:14-20, xxh3_128.go:13-19 `New64WithSecret`, `New128WithSecret` -/
def NewWithSecret (secret : Bytes) : Option Digest := if secret.length < 136 then none else some (newDigest 0#64 secret)
/-- xxhash/xxh3/xxh3_64.go:23-28, xxh3_128.go:22-27 `New64WithSeed`, `New128WithSeed` -/
def NewWithSeed (seed : U64) : Digest := newDigest seed (GenCustomSecret (zeros 192) seed)

/-- xxhash/xxh3/xxh3_64.go:31-39, 41-49 `Sum64`, `Sum64WithSeed` (`Sum64` has seed 0) -/
def Sum64WithSeed (input : Bytes) (seed : U64) : Option Bytes := ((NewWithSeed seed).write input).map fun d => goCopy (zeros 8) 0 (be64 d.1.Sum64)
/-- xxhash/xxh3/xxh3_64.go:51-64 `Checksum64`, `Checksum64WithSeed` -/
def Checksum64WithSeed (input : Bytes) (seed : U64) : Option U64 := ((NewWithSeed seed).write input).map fun d => d.1.Sum64
/-- xxhash/xxh3/xxh3_128.go:30-48 `Sum128`, `Sum128WithSeed` -/
def Sum128WithSeed (input : Bytes) (seed : U64) : Option Bytes := ((NewWithSeed seed).write input).map fun d => goCopy (zeros 16) 0 d.1.Sum128.bytes
/-- xxhash/xxh3/xxh3_128.go:50-63 `Checksum128`, `Checksum128WithSeed` -/
def Checksum128WithSeed (input : Bytes) (seed : U64) : Option Uint128 := ((NewWithSeed seed).write input).map fun d => d.1.Sum128

end Verif.XXH3
