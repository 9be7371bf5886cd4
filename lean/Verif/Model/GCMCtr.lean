import Verif.Model.GMAC
import Verif.Spec.CTR
/-
Model of gmac/gcm/ctr.go, block.go and of `GCMCounterCrypt`, `Auth` (gcm.go, gcm_generic.go).
The block cipher is a parameter `E`.
-/
namespace Verif.GCMCtr

/-- gmac/gcm/ctr.go:11-20 `CTR`.  `Out` is a part of `out`; `out` is written only while `Out` is empty, so `Out` is
modelled by its contents.  `b` (the cipher) is a parameter of the functions. -/
structure CTR where
  Out : Bytes
  out : Bytes
  blockSize : Nat
  ctr : Bytes
  ctrOffset : Nat

/-- gmac/gcm/ctr.go:102-107: the loop over the bytes from the last to the first; `i` bytes are left. -/
def incLoop (b : Bytes) : Nat → Bytes
  | 0 => b
  | i + 1 =>
    let b := b.set i (at8 b i + 1)
    if at8 b i ≠ 0 then b else incLoop b i

/-- gmac/gcm/ctr.go:88-109 `IncCtr` -/
def incCtr (b : Bytes) : Bytes :=
  if b.length = 1 then b.set 0 (at8 b 0 + 1)
  else if b.length = 2 then
    let v : BitVec 16 := at8 b 0 ++ at8 b 1
    let v := v + 1
    [v.extractLsb' 8 8, v.extractLsb' 0 8]
  else if b.length = 4 then be32 (getBE32 b 0 + 1)
  else if b.length = 8 then be64 (getBE64 b 0 + 1)
  else incLoop b b.length

/-- gmac/gcm/ctr.go:111-116 `CeilDiv` -/
def ceilDiv (a b : Nat) : Nat := if b = 0 then 0 else (a + b - 1) / b

/-- gmac/gcm/block.go:48-54, 64-74 `Encrypt4`, `Encrypt8` (`n` = 4, 8), in place; one block is `Encrypt`. -/
def encryptN (E : Bytes → Bytes) (bs n : Nat) (o : Bytes) : Bytes :=
  forLoop 0 n (fun o i => goCopy o (i * bs) (E ((o.drop (i * bs)).take bs))) o

/-- gmac/gcm/ctr.go:22-36 `Init` -/
def init (bs : Nat) (iv : Bytes) (ctrSize : Int) : CTR :=
  { Out := []
    out := zeros (8 * bs)
    blockSize := bs
    ctr := goCopy (zeros bs) 0 iv
    ctrOffset := if ctrSize > 0 then ((iv.length : Int) - ctrSize).toNat else 0 }

/-- gmac/gcm/ctr.go:51-56: the loop that lays out the counters; the state is (out, ctr). -/
def layOut (x : CTR) (blocks : Nat) : Bytes × Bytes :=
  forLoop (8 - blocks) 8 (fun (st : Bytes × Bytes) k =>
    (goCopy st.1 (k * x.blockSize) st.2, st.2.take x.ctrOffset ++ incCtr (st.2.drop x.ctrOffset))) (x.out, x.ctr)

/-- gmac/gcm/ctr.go:46-70 `Refill` -/
def refill (E : Bytes → Bytes) (x : CTR) (blocks : Nat) : CTR :=
  if x.Out.length ≠ 0 then x else
  let outIdx := (8 - blocks) * x.blockSize
  let (out, ctr) := layOut x blocks
  let out :=
    if blocks > 4 then encryptN E x.blockSize 8 out
    else if blocks > 1 then out.take (4 * x.blockSize) ++ encryptN E x.blockSize 4 (out.drop (4 * x.blockSize))
    else out.take (7 * x.blockSize) ++ encryptN E x.blockSize 1 (out.drop (7 * x.blockSize))
  { x with out := out, ctr := ctr, Out := out.drop outIdx }

/-- gmac/gcm/ctr.go:72-87: the loop of `Xor`; each pass takes at least one byte, so `in.length` passes suffice (the first
argument).  The result is the new state and the contents of `out`; `none` is the panic of `subtle.XORBytes` when `out` is
too short. -/
def xorLoop (E : Bytes → Bytes) : Nat → CTR → Bytes → Bytes → Option (CTR × Bytes)
  | 0, x, out, _ => some (x, out)
  | f + 1, x, out, inp =>
    if inp.length = 0 then some (x, out) else
    let x := if x.Out.length = 0 then
        let remainBlocks := ceilDiv inp.length x.blockSize
        refill E x (if remainBlocks > 8 then 8 else remainBlocks)
      else x
    let n := min inp.length x.Out.length
    if out.length < n then none
    else (xorLoop E f { x with Out := x.Out.drop n } (out.drop n) (inp.drop n)).map fun r =>
      (r.1, List.zipWith (· ^^^ ·) (inp.take n) (x.Out.take n) ++ r.2)
/-- gmac/gcm/ctr.go:72-87 `Xor` -/
def xor (E : Bytes → Bytes) (x : CTR) (out inp : Bytes) : Option (CTR × Bytes) := xorLoop E inp.length x out inp

/-- gmac/gcm/ctr.go:38-44 `CopyCTR`; the contents of `b`, `none` is the panic. -/
def copyCTR (x : CTR) (b : Bytes) : Option Bytes := if b.length ≠ x.ctr.length then none else some (goCopy b 0 x.ctr)

/-- gmac/gcm/ctr.go:46-70 `Refill` for any argument: more than 8 or fewer than 0 blocks make the slice expressions
`x.out[idx:]`, `x.out[outIdx:]` panic. -/
def refillInt (E : Bytes → Bytes) (x : CTR) (blocks : Int) : Option CTR :=
  if x.Out.length ≠ 0 then some x
  else if blocks < 0 ∨ 8 < blocks then none
  else some (refill E x blocks.toNat)

/-- A call of a method of `CTR` (gmac/gcm/ctr.go:38-87): the object and the caller's buffer afterwards. -/
def step (E : Bytes → Bytes) (x : CTR) : Spec.CTR.Call → Option (CTR × Bytes)
  | .xor out inp => xor E x out inp
  | .refill n => (refillInt E x n).map (·, [])
  | .copyCTR b => (copyCTR x b).map (x, ·)

/-- A history of calls (gmac/gcm/ctr.go:38-87). -/
def run (E : Bytes → Bytes) (x : CTR) : List Spec.CTR.Call → Option (List Bytes)
  | [] => some []
  | c :: cs => match step E x c with
    | none => none
    | some (x, r) => (run E x cs).map (r :: ·)

/-- gmac/gcm/gcm.go:11-16 `GCMCounterCrypt`: the contents of `out` and of `counter` afterwards. -/
def counterCrypt (E : Bytes → Bytes) (out inp counter : Bytes) : Option (Bytes × Bytes) := do
  let (x, out) ← xor E (init 16 counter 4) out inp
  let counter ← copyCTR x counter
  some (out, counter)

/-- gmac/gcm/gcm_generic.go:152-158 `gcmAuthGo`; the 16 bytes of `out`. -/
def auth (t : GMAC.Table) (ciphertext additionalData tagMask : Bytes) : Bytes :=
  let y := GMAC.gcmUpdate t ⟨0, 0⟩ additionalData
  let y := GMAC.gcmUpdate t y ciphertext
  GMAC.gcmFinish t y ciphertext.length additionalData.length tagMask

end Verif.GCMCtr
