import Verif.Lazy
/-
Chaskey (Mouha et al., SAC 2014), on 128-bit words: bit 0 is the least significant bit of the first
byte.
-/
namespace Verif.Spec.Chaskey

abbrev W := BitVec 128
/-- The 32-bit word `v_i`. -/
def word (v : W) (i : Nat) : U32 := v.extractLsb' (32 * i) 32
def join (v0 v1 v2 v3 : U32) : W := v3 ++ v2 ++ v1 ++ v0

/-- One round of the permutation. -/
def round (v : W) : W :=
  let v0 := word v 0 + word v 1
  let v1 := (word v 1).rotateLeft 5 ^^^ v0
  let v0 := v0.rotateLeft 16
  let v2 := word v 2 + word v 3
  let v3 := (word v 3).rotateLeft 8 ^^^ v2
  let v0 := v0 + v3
  let v3 := v3.rotateLeft 13 ^^^ v0
  let v2 := v2 + v1
  let v1 := v1.rotateLeft 7 ^^^ v2
  let v2 := v2.rotateLeft 16
  join v0 v1 v2 v3
def perm : Nat → W → W
  | 0, v => v
  | r + 1, v => perm r (round v)

/-- Multiplication by `x` in GF(2)[x]/(x^128 + x^7 + x^2 + x + 1). -/
def timesTwo (k : W) : W := k <<< 1 ^^^ (if k.getLsbD 127 then 0x87#128 else 0#128)

/-- 16 bytes, little-endian. -/
def ofBytes (b : Bytes) : W := join (getLE32 b 0) (getLE32 b 4) (getLE32 b 8) (getLE32 b 12)
def toBytes (v : W) : Bytes := le32 (word v 0) ++ le32 (word v 1) ++ le32 (word v 2) ++ le32 (word v 3)

/-- The tag: the last block is xored with `2K` if complete, padded `1 0*` and xored with `4K` if not. -/
def mac (r : Nat) (key m : Bytes) : Bytes :=
  let k := ofBytes key
  let h := (initBlocks 16 m).foldl (fun h b => perm r (h ^^^ ofBytes b)) k
  let b := lastBlock 16 m
  let l := if b.length = 16 then timesTwo k else timesTwo (timesTwo k)
  let b := if b.length = 16 then b else b ++ [1#8] ++ zeros (15 - b.length)
  toBytes (perm r (h ^^^ ofBytes b ^^^ l) ^^^ l)

end Verif.Spec.Chaskey
