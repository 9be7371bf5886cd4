import Verif.Model.GCMCtr
/-
Model of gmac/gcm: what `DeriveCounter` and `Auth` do with a buffer that is not zero; the Go code around the assembly
(gcm_asm.go).
-/
namespace Verif.GCMOut
open Verif.Spec

/-- gmac/gcm/gcm_generic.go:130-148 `gcmDeriveCounterGo` with the contents `counter` of the caller's array. -/
def deriveCounterInto (t : GMAC.Table) (counter nonce : Bytes) : Bytes :=
  if nonce.length = 12 then (goCopy counter 0 nonce).set 15 1#8
  else
    let y := GMAC.gcmUpdate t ⟨0, 0⟩ nonce
    let y := GMAC.gcmMul t ⟨y.low, y.high ^^^ (BitVec.ofNat 64 nonce.length * 8)⟩
    be64 y.low ++ be64 y.high

/-- gmac/gcm/gcm_amd64.s:191-: the accumulator is loaded from (line `MOVOU (tPtr), ACC0`) and stored to memory without a
byte swap, the blocks of data are byte-swapped: the memory holds the block backwards. -/
def dec (T : Bytes) : BitVec 128 := GCM.block T.reverse
/-- gmac/gcm/gcm_amd64.s:191- (`MOVOU ACC0, (tPtr)`) -/
def enc (y : BitVec 128) : Bytes := (GCM.bytes y).reverse

/-- gmac/gcm/gcm_amd64.s:191- `_gcmData`.  The assembly itself is not modelled: this is what it is for, GHASH of the padded
data, going on from the accumulator in memory.  `H` stands for the table. -/
def asmData (H : BitVec 128) (data T : Bytes) : Bytes :=
  enc ((fullBlocks 16 (GCM.pad16 data)).foldl (fun Y X => GCM.mul (Y ^^^ GCM.block X) H) (dec T))
/-- gmac/gcm/gcm_amd64.s:48-114 `_gcmFinish`, likewise. -/
def asmFinish (H : BitVec 128) (tagMask T : Bytes) (pLen dLen : Nat) : Bytes :=
  List.zipWith (· ^^^ ·) (GCM.bytes (GCM.mul (dec T ^^^ (BitVec.ofNat 64 dLen <<< 3 ++ BitVec.ofNat 64 pLen <<< 3 : BitVec 128)) H)) tagMask

/-- gmac/gcm/gcm_asm.go:52-64 `gcmDeriveCounterAsm`, with the contents of the caller's array. -/
def deriveCounterAsm (H : BitVec 128) (counter nonce : Bytes) : Bytes :=
  if nonce.length = 12 then (goCopy counter 0 nonce).set 15 1#8
  else
    let counter := asmData H nonce counter
    asmFinish H (zeros 16) counter nonce.length 0

/-- gmac/gcm/gcm_asm.go:66-71 `gcmAuthAsm`, with the contents of the caller's buffer `out` (16 bytes). -/
def authAsm (H : BitVec 128) (out ciphertext additionalData tagMask : Bytes) : Bytes :=
  let out := asmData H additionalData out
  let out := asmData H ciphertext out
  asmFinish H tagMask out ciphertext.length additionalData.length

/-- gmac/gcm/gcm_generic.go:152-170 `gcmAuthGo`, `gcmFinishGo` with the contents of `out`: its first 16 bytes are replaced. -/
def authInto (t : GMAC.Table) (out ciphertext additionalData tagMask : Bytes) : Bytes :=
  goCopy out 0 (GCMCtr.auth t ciphertext additionalData tagMask)

end Verif.GCMOut
