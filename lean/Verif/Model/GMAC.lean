import Verif.HashAPI
/-
Model of package gmac: gmac.go, and of the generic (pure Go) path of gmac/gcm: gcm.go, gcm_generic.go.  The assembly of
amd64/arm64 (gcm_asm.go) is not modelled.  The block cipher is a parameter.
-/
namespace Verif.GMAC

/-- gmac/gcm/gcm.go:26-28 `GCMFieldElement` -/
structure FE where
  low : U64
  high : U64
  deriving DecidableEq

/-- gmac/gcm/gcm_generic.go:30-34 `reverseBits` -/
def reverseBits (i : Nat) : Nat :=
  let i := ((i <<< 2) &&& 0xc) ||| ((i >>> 2) &&& 0x3)
  ((i <<< 1) &&& 0xa) ||| ((i >>> 1) &&& 0x5)
/-- gmac/gcm/gcm_generic.go:37-40 `gcmAdd` -/
def gcmAdd (x y : FE) : FE := ⟨x.low ^^^ y.low, x.high ^^^ y.high⟩
/-- gmac/gcm/gcm_generic.go:43-63 `gcmDouble` -/
def gcmDouble (x : FE) : FE :=
  let high := (x.high >>> 1) ||| (x.low <<< 63)
  let low := x.low >>> 1
  ⟨if x.high &&& 1#64 = 1#64 then low ^^^ 0xe100000000000000#64 else low, high⟩

/-- `[16]GCMFieldElement` -/
abbrev Table := List FE
/-- `t[i]` -/
def tab (t : Table) (i : Nat) : FE := t.getD i ⟨0, 0⟩

/-- gmac/gcm/gcm_generic.go:8-27 `gcmInitGo`; `key` is the encrypted zero block. -/
def gcmInit (key : Bytes) : Table :=
  let x : FE := ⟨getBE64 key 0, getBE64 key 8⟩
  let p : Table := (List.replicate 16 ⟨0, 0⟩).set (reverseBits 1) x
  -- for i := 2; i < 16; i += 2
  forLoop 1 8 (fun p k =>
    let i := 2 * k
    let p := p.set (reverseBits i) (gcmDouble (tab p (reverseBits (i / 2))))
    p.set (reverseBits (i + 1)) (gcmAdd (tab p (reverseBits i)) x)) p

/-- gmac/gcm/gcm_generic.go:65-68 -/
def reductionTable : List (BitVec 16) :=
  [0x0000, 0x1c20, 0x3840, 0x2460, 0x7080, 0x6ca0, 0x48c0, 0x54e0,
   0xe100, 0xfd20, 0xd940, 0xc560, 0x9180, 0x8da0, 0xa9c0, 0xb5e0]

/-- gmac/gcm/gcm_generic.go:82-97: one nibble; the state is (z, word). -/
def mulStep (t : Table) (s : FE × U64) : FE × U64 :=
  let (z, word) := s
  let msw := (z.high &&& 0xf#64).toNat
  let high := z.high >>> 4
  let high := high ||| (z.low <<< 60)
  let low := z.low >>> 4
  let low := low ^^^ ((reductionTable.getD msw 0).setWidth 64 <<< 48)
  let e := tab t (word &&& 0xf#64).toNat
  (⟨low ^^^ e.low, high ^^^ e.high⟩, word >>> 4)
/-- gmac/gcm/gcm_generic.go:71-101 `gcmMul` -/
def gcmMul (t : Table) (y : FE) : FE :=
  let z := (forLoop 0 16 (fun s _ => mulStep t s) (⟨0, 0⟩, y.high)).1
  (forLoop 0 16 (fun s _ => mulStep t s) (z, y.low)).1

/-- gmac/gcm/gcm_generic.go:105-112 `gcmUpdateBlocksGo` (one block) -/
def updateBlock (t : Table) (y : FE) (b : Bytes) : FE := gcmMul t ⟨y.low ^^^ getBE64 b 0, y.high ^^^ getBE64 b 8⟩
/-- gmac/gcm/gcm_generic.go:105-112 `gcmUpdateBlocksGo` -/
def updateBlocks (t : Table) (y : FE) (blocks : Bytes) : FE := (fullBlocks 16 blocks).foldl (updateBlock t) y
/-- gmac/gcm/gcm_generic.go:116-125 `gcmUpdateGo` -/
def gcmUpdate (t : Table) (y : FE) (data : Bytes) : FE :=
  let full := (data.length >>> 4) <<< 4
  let y := updateBlocks t y (data.take full)
  if data.length ≠ full then updateBlocks t y (goCopy (zeros 16) 0 (data.drop full)) else y
/-- gmac/gcm/gcm.go:54-60 `Update` -/
def update (t : Table) (y : FE) (blocks : Bytes) : FE := if blocks.length = 0 then y else gcmUpdate t y blocks
/-- gmac/gcm/gcm_generic.go:130-148 `gcmDeriveCounterGo` -/
def deriveCounter (t : Table) (nonce : Bytes) : Bytes :=
  if nonce.length = 12 then (goCopy (zeros 16) 0 nonce).set 15 1#8
  else
    let y := gcmUpdate t ⟨0, 0⟩ nonce
    let y := gcmMul t ⟨y.low, y.high ^^^ (BitVec.ofNat 64 nonce.length * 8)⟩
    be64 y.low ++ be64 y.high
/-- gmac/gcm/gcm_generic.go:160-170 `gcmFinishGo`, for a ciphertext length of 0; `out` is filled with 16 bytes. -/
def gcmFinish (t : Table) (y : FE) (ctLen adLen : Nat) (tagMask : Bytes) : Bytes :=
  let y := gcmMul t ⟨y.low ^^^ (BitVec.ofNat 64 adLen * 8), y.high ^^^ (BitVec.ofNat 64 ctLen * 8)⟩
  List.zipWith (· ^^^ ·) (be64 y.low ++ be64 y.high) tagMask

/-- gmac/gmac.go:18-27 -/
structure Ghash where
  gcm : Table
  tagMask : Bytes
  y : FE
  remains : Bytes
  remainIdx : Nat
  written : Nat

/-- gmac/gmac.go:30-49 `New`; `none` is the error for a block size other than 16. -/
def new (bs : Nat) (E : Bytes → Bytes) (iv : Bytes) : Option Ghash :=
  if bs ≠ 16 then none else
  let iv := if iv.length = 0 then zeros 12 else iv
  let gcm := gcmInit (E (zeros 16))
  some ⟨gcm, E (deriveCounter gcm iv), ⟨0, 0⟩, zeros 16, 0, 0⟩

/-- gmac/gmac.go:59-63 `Reset` -/
def Ghash.reset (g : Ghash) : Ghash := { g with y := ⟨0, 0⟩, remainIdx := 0, written := 0 }

/-- gmac/gmac.go:80-93: the rest of `Write`, `n` bytes being done already. -/
def Ghash.rest (g : Ghash) (n : Nat) (b : Bytes) : Ghash × Nat :=
  let full := b.length / 16 * 16
  let (g, n, b) := if 0 < full then ({ g with y := update g.gcm g.y (b.take full), written := g.written + full }, n + full, b.drop full) else (g, n, b)
  if 0 < b.length then
    let k := min 16 b.length
    ({ g with remains := goCopy g.remains 0 b, remainIdx := k }, n + k)
  else (g, n)

/-- gmac/gmac.go:65-94 `Write` -/
def Ghash.write (g : Ghash) (b : Bytes) : Ghash × Nat :=
  if 0 < g.remainIdx then
    let n := min (g.remains.length - g.remainIdx) b.length
    let g := { g with remains := goCopy g.remains g.remainIdx b, written := g.written + n, remainIdx := g.remainIdx + n }
    if g.remainIdx < 16 then (g, n)
    else Ghash.rest { g with y := update g.gcm g.y g.remains, remainIdx := 0 } n (b.drop n)
  else g.rest 0 b

/-- gmac/gmac.go:96-106: the tag that `Sum` computes. -/
def Ghash.tag (g : Ghash) : Bytes :=
  let yy := if 0 < g.remainIdx then update g.gcm g.y (g.remains.take g.remainIdx) else g.y
  gcmFinish g.gcm yy 0 (g.written + g.remainIdx) g.tagMask

/-- gmac/gmac.go:96-121 `Sum`, `SliceForAppend(b, len(b)+16)`: the result has len(b) bytes after the tag, which are zero
when the slice `b` has no spare capacity (the case modelled; otherwise they are what the caller's array holds). -/
def Ghash.sum (g : Ghash) (b : Bytes) : Bytes := b ++ g.tag ++ zeros b.length

def impl : HashImpl Ghash where
  write g p := some (g.write p)
  sum g b := some (g, g.sum b)
  reset := Ghash.reset
  size _ := 16
  blockSize _ := 16

end Verif.GMAC
