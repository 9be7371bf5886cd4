import Verif.Model.Big
import Verif.HashAPI
/-
Package vmac: vmac.go, utils.go, sbox.go.  AES under the key (`crypto/aes`) is a parameter: a function `E` on 16-byte blocks.
-/
namespace Verif.VMAC
open Verif.Spec (beNat)

/-- vmac/sbox.go:13-19 -/
def m64 : Nat := 1 <<< 64
def m126 : Nat := 1 <<< 126
def m128 : Nat := 1 <<< 128
def p64 : Nat := beNat [0xFF, 0xFF, 0xFF, 0xFF, 0xFF, 0xFF, 0xFE, 0xFF]
def p64p32 : Nat := beNat [0xFF, 0xFF, 0xFF, 0xFF, 0x00, 0x00, 0x00, 0x00]
def p127 : Nat := beNat [0x7F, 0xFF, 0xFF, 0xFF, 0xFF, 0xFF, 0xFF, 0xFF, 0xFF, 0xFF, 0xFF, 0xFF, 0xFF, 0xFF, 0xFF, 0xFF]

/-- b[lo:hi] -/
def slice (b : Bytes) (lo hi : Nat) : Bytes := (b.drop lo).take (hi - lo)

/-- vmac/utils.go:7-30 `nh` -/
def nh (k m : Bytes) : Bytes :=
  let t := m.length / 8
  let y := forLoop 0 ((t + 1) / 2) (fun y j =>
    let i := 2 * j
    let mi := beNat (slice m (i * 8) ((i + 1) * 8))
    let ki := beNat (slice k (i * 8) ((i + 1) * 8))
    let mj := beNat (slice m ((i + 1) * 8) ((i + 2) * 8))
    let kj := beNat (slice k ((i + 1) * 8) ((i + 2) * 8))
    let sumi := (mi + ki) % m64
    let sumj := (mj + kj) % m64
    let prod := (sumi * sumj) % m128
    (y + prod) % m128) 0
  Big.fill 16 (y % m126)

/-- vmac/utils.go:37-45 `zeroPad` -/
def zeroPad (s : Bytes) : Bytes :=
  let r := s.length % 16
  if r ≠ 0 then goCopy (zeros (s.length + 16 - r)) 0 s else s

/-- vmac/utils.go:47-61 `endianSwap` (each turn of the loop fills its own 8 bytes) -/
def endianSwap (s : Bytes) : Bytes := ((List.range (s.length / 8)).map fun j =>
  [at8 s (8 * j + 7), at8 s (8 * j + 6), at8 s (8 * j + 5), at8 s (8 * j + 4), at8 s (8 * j + 3), at8 s (8 * j + 2), at8 s (8 * j + 1), at8 s (8 * j)]).flatten

/-- vmac/vmac.go:19-25 `digest` (the key only occurs inside the cipher; `bytes.Buffer` is its contents; messages are assumed shorter than 2^60
bytes, so that `h.message.Len()*8` does not overflow) -/
structure Digest where
  E : Bytes → Bytes
  nonce : Bytes
  size : Int
  message : Bytes

/-- vmac/vmac.go:27-48 `New`, without the errors of aes.NewCipher (`%` of Go: the sign does not matter for `!= 0`) -/
def new (E : Bytes → Bytes) (nonce : Bytes) (size : Int) : Option Digest :=
  if nonce.length ≥ 16 then none
  else if size.tmod 8 ≠ 0 then none
  else some ⟨E, nonce, size, []⟩

/-- vmac/vmac.go:110-122 `kdf` -/
def kdf (E : Bytes → Bytes) (index : Nat) (numbits : Nat) : Bytes :=
  let n := (numbits + 128 - 1) / 128
  let y := forLoop 0 n (fun y i =>
    let block := slice y (i * 16) ((i + 1) * 16)
    let block := block.set 0 (BitVec.ofNat 8 index)
    let block := block.set (16 - 1) (BitVec.ofNat 8 i)
    goCopy y (i * 16) (E block)) (zeros (n * 16))
  y.take (numbits / 8)

/-- vmac/vmac.go:124-135 `pdf`; panics: an empty nonce, size 0 (division), the slice bounds -/
def Digest.pdf (h : Digest) : Option Bytes :=
  if h.nonce = [] ∨ h.size = 0 then none
  else
    let tagsPerBlock := (16 : Int).tdiv h.size
    let mask : Byte := BitVec.ofInt 8 (tagsPerBlock - 1)
    let index := at8 h.nonce (h.nonce.length - 1) &&& mask
    let pad := goCopy (zeros 16) (16 - h.nonce.length) h.nonce
    let pad := pad.set (16 - 1) (at8 pad (16 - 1) - index)
    let pad := h.E pad
    let lo := (index.toNat : Int) * h.size
    let hi := lo + h.size
    if 0 ≤ lo ∧ lo ≤ hi ∧ hi ≤ 16 then some (slice pad lo.toNat hi.toNat) else none

/-- vmac/vmac.go:137-160 `l1` -/
def Digest.l1 (h : Digest) (iter : Nat) : Bytes :=
  let tmpk := kdf h.E 128 (1024 + 128 * iter)
  let k := slice tmpk (16 * iter) (128 + 16 * iter)
  let t := (h.message.length + 128 - 1) / 128
  forLoop 0 t (fun y i =>
    let mi := if h.message.length < (i + 1) * 128 then h.message.drop (i * 128) else slice h.message (i * 128) ((i + 1) * 128)
    let mi := zeroPad mi
    let mi := endianSwap mi
    goCopy y (i * 16) ((nh k mi).take 16)) (zeros (t * 16))

/-- vmac/vmac.go:162-188 `l2` -/
def Digest.l2 (h : Digest) (m : Bytes) (length iter : Nat) : Bytes :=
  let tmpt := kdf h.E 192 (128 * (iter + 1))
  let t := slice tmpt (16 * iter) (16 * (iter + 1))
  let t := forLoop 0 4 (fun t j => t.set (4 * j) (at8 t (4 * j) &&& 31)) t
  let k := beNat t
  let n := m.length / 16
  let y := if n ≠ 0 then forLoop 0 n (fun y i => (y * k + beNat (slice m (16 * i) (16 * (i + 1)))) % p127) 1 else k
  let y := (y + (length % 1024) <<< 64) % p127
  Big.fill 16 y

/-- vmac/vmac.go:191-202: the loop of `l3`.  The block number enters the cipher as one byte, so the blocks repeat after 256: with `none` where
fewer than two of 512 blocks are acceptable (the loop then never ends) -/
def l3Loop (E : Bytes → Bytes) : Nat → Nat → Nat → Nat × Nat → Option (Nat × Nat)
  | _, _, 0, k => some k
  | 0, _, _ + 1, _ => none
  | fuel + 1, i, need + 1, _ =>
    let t := slice (kdf E 224 (128 * (i + 1))) (16 * i) (16 * (i + 1))
    let k1 := beNat (t.take 8)
    let k2 := beNat (t.drop 8)
    l3Loop E fuel (i + 1) (if k1 < p64 ∧ k2 < p64 then need else need + 1) (k1, k2)
/-- vmac/vmac.go:190-215 `l3` -/
def Digest.l3 (h : Digest) (m : Bytes) (iter : Nat) : Option Bytes :=
  (l3Loop h.E 512 0 (iter + 1) (0, 0)).map fun k =>
    let mint := beNat m
    let m1 := mint / p64p32
    let m2 := mint % p64p32
    let y := ((m1 + k.1) * (m2 + k.2)) % p64
    Big.fill 8 y

/-- vmac/vmac.go:98-108 `vhash`; `make` panics for a negative capacity -/
def Digest.vhash (h : Digest) : Option Bytes :=
  if h.size < 0 then none
  else forLoop 0 (h.size.toNat / 8) (fun (y : Option Bytes) i => y.bind fun y =>
    let a := h.l1 i
    let b := h.l2 a (h.message.length * 8) i
    (h.l3 b i).map fun c => y ++ c) (some [])

/-- vmac/vmac.go:73-87 `checkSum` -/
def Digest.checkSum (h : Digest) : Option Bytes :=
  h.vhash.bind fun hashed => h.pdf.bind fun pad =>
    some (forLoop 0 (h.size.toNat / 8) (fun sum i =>
      let lo := 8 * i
      let hi := 8 * (i + 1)
      let t := (beNat (slice pad lo hi) + beNat (slice hashed lo hi)) % m64
      goCopy sum (hi - (Big.bytes t).length) (Big.bytes t)) (zeros h.size.toNat))

/-- vmac/vmac.go:50-71 -/
def impl : HashImpl Digest where
  write h p := some ({ h with message := h.message ++ p }, p.length)
  sum h b := h.checkSum.map fun s => (h, b ++ s)
  reset h := { h with message := [] }
  size h := h.size.toNat
  blockSize _ := 16

end Verif.VMAC
