import Verif.HashAPI
import Verif.Model.Whirlpool
/-
Package fsb: digest.go, utils.go.  The table Pi (sbox.go:4-1070, some 270 000 bytes) is a parameter: `pi i` is Pi[i].
-/
namespace Verif.FSB

/-- A row of sbox.go:1072-1083: {hashbitlen, n, w, r, p}. -/
structure Cfg where
  hashbitlen : Nat
  n : Nat
  w : Nat
  r : Nat
  p : Nat

/-- sbox.go:1072-1083 -/
def parameters : List Cfg := [
  ⟨48, 3 <<< 17, 24, 192, 197⟩,
  ⟨160, 5 <<< 18, 80, 640, 653⟩,
  ⟨224, 7 <<< 18, 112, 896, 907⟩,
  ⟨256, 1 <<< 21, 1 <<< 7, 1 <<< 10, 1061⟩,
  ⟨384, 23 <<< 16, 184, 1472, 1483⟩,
  ⟨512, 31 <<< 16, 248, 1984, 1987⟩]

/-- utils.go:42-51; the result is never -1 for the parameters above. -/
def logarithm (a : Nat) : Nat := ((List.range 32).find? fun i => a = 1 <<< i).getD 0
/-- utils.go:38-40 -/
def LUI (a : Nat) : Nat := (a - 1) / (4 <<< 3) + 1

/-! digest.go:66-71: the derived parameters (all small; uint32 never overflows). -/
def Cfg.b (c : Cfg) : Nat := c.n / c.r
/-- digest.go:67 -/
def Cfg.bpc (c : Cfg) : Nat := logarithm (c.n / c.w)
/-- digest.go:68 -/
def Cfg.inputsize (c : Cfg) : Nat := c.w * c.bpc - c.r
/-- digest.go:69 -/
def Cfg.bfiv (c : Cfg) : Nat := c.r / c.w
/-- digest.go:70 -/
def Cfg.bfm (c : Cfg) : Nat := c.inputsize / c.w

/-- digest.go:78-83: bytes r/8 … of firstLine[k][0], where the first loop and the statement after it have stored: the bytes of Pi_line, the last one masked.
(The assignments of the loops are written as the array they produce, here and below.) -/
def flTail (pi : Nat → Byte) (c : Cfg) (k j : Nat) : Byte :=
  let line := fun j => pi (k * ((c.p >>> 3) + 1) + j)
  if j = c.p >>> 3 then line (c.p >>> 3) &&& ((((1 : Byte) <<< (c.p &&& 7)) - 1) <<< (8 - (c.p &&& 7))) else line j
/-- digest.go:75-87: firstLine[k][0]; the loop 84-87 fills the first r/8 bytes and reads only bytes behind them. -/
def fl0 (pi : Nat → Byte) (c : Cfg) (k : Nat) : Bytes :=
  (List.range (((c.p + c.r) >>> 3) + 1)).map fun l =>
    if l < c.r >>> 3 then
      (flTail pi c k ((c.p >>> 3) + l - (c.r >>> 3)) <<< (c.p &&& 7)) ^^^ (flTail pi c k ((c.p >>> 3) + l + 1 - (c.r >>> 3)) >>> (8 - (c.p &&& 7)))
    else flTail pi c k (l - (c.r >>> 3))
/-- digest.go:89-95: firstLine[k][j], j > 0. -/
def flj (pi : Nat → Byte) (c : Cfg) (k j : Nat) : Bytes :=
  (List.range (((c.p + c.r) >>> 3) + 1)).map fun l =>
    (if l < (c.p + c.r) >>> 3 then at8 (fl0 pi c k) l >>> j else 0) ^^^ (if 0 < l then at8 (fl0 pi c k) (l - 1) <<< (8 - j) else 0)
def firstLine (pi : Nat → Byte) (c : Cfg) (k j : Nat) : Bytes := if j = 0 then fl0 pi c k else flj pi c k j

/-- utils.go:8-19 -/
def bytesToUints (b : Bytes) : List U32 := (List.range (b.length / 4)).map fun i => getBE32 b (i * 4)
/-- utils.go:22-33 -/
def uintsToBytes (w : List U32) : Bytes := w.flatMap be32

/-- digest.go:12-34 -/
structure Digest where
  syndrome : Bytes
  newSyndrome : List U32
  buffer : Bytes
  count : U32
  databitlen : U64

/-- digest.go:58-105 (digest.go:54 calls it on a new object) -/
def reset (c : Cfg) : Digest :=
  { syndrome := zeros (LUI c.r * 4), newSyndrome := List.replicate (LUI c.r) 0, buffer := zeros (c.inputsize >>> 3), count := 0, databitlen := 0 }

/-- digest.go:265-285: the part of the index that comes from the syndrome. -/
def ivIndex (c : Cfg) (syndrome : Bytes) (i index : Nat) : Nat :=
  if c.bfiv = 2 then index ^^^ ((at8 syndrome (i >>> 2) >>> (6 - ((i &&& 3) <<< 1))).toNat &&& 3)
  else if c.bfiv = 4 then index ^^^ ((at8 syndrome (i >>> 1) >>> (4 - ((i &&& 1) <<< 2))).toNat &&& 15)
  else if c.bfiv = 8 then index ^^^ (at8 syndrome i).toNat
  else forLoop (i * c.bfiv) ((i + 1) * c.bfiv) (fun index j => index ^^^ ((((at8 syndrome (j >>> 3)).toNat >>> (7 - (j &&& 7))) &&& 1) <<< ((i + 1) * c.bfiv - j - 1))) index
/-- digest.go:287-302: the part that comes from the message. -/
def msgIndex (c : Cfg) (buffer : Bytes) (i index : Nat) : Nat :=
  if c.bfm = 2 then index ^^^ (((at8 buffer (i >>> 2) >>> (6 - ((i &&& 3) <<< 1))).toNat &&& 3) <<< c.bfiv)
  else if c.bfm = 4 then index ^^^ (((at8 buffer (i >>> 1) >>> (4 - ((i &&& 1) <<< 2))).toNat &&& 15) <<< c.bfiv)
  else if c.bfm = 8 then index ^^^ ((at8 buffer i).toNat <<< c.bfiv)
  else forLoop (i * c.bfm) ((i + 1) * c.bfm) (fun index j => index ^^^ (((at8 buffer (j >>> 3) >>> (7 - (j &&& 7))).toNat &&& 1) <<< ((i + 1) * c.bfm - j - 1 + c.bfiv))) index

/-- digest.go:262-311: one turn of the loop over i. -/
def hashStep (pi : Nat → Byte) (c : Cfg) (syndrome buffer : Bytes) (ns : List U32) (i : Nat) : List U32 :=
  let index := msgIndex c buffer i (ivIndex c syndrome i (i <<< c.bpc))
  let bidx := index / c.r
  let index := index - bidx * c.r
  let temp := bytesToUints ((firstLine pi c bidx (index &&& 7)).drop ((c.r >>> 3) - (index >>> 3)))
  forLoop 0 (c.r / (4 <<< 3)) (fun ns j => ns.set j (ns.getD j 0 ^^^ temp.getD j 0)) ns

/-- digest.go:254-318.  (The inner loop runs downwards; its turns touch different words.) -/
def Digest.performHash (pi : Nat → Byte) (c : Cfg) (d : Digest) : Digest :=
  let ns := List.replicate d.newSyndrome.length 0
  let ns := forLoop 0 c.w (hashStep pi c d.syndrome d.buffer) ns
  { d with newSyndrome := bytesToUints d.syndrome, syndrome := uintsToBytes ns, count := 0 }

/-- digest.go:124-206.  `fuel` bounds the recursion: every call but the last consumes at least one bit.  The branches for a count that is not a multiple of 8
(138-148 and 164-204) are not modelled: `none`; the contract shows that they are never reached. -/
def Digest.writeBits (pi : Nat → Byte) (c : Cfg) : Nat → Digest → Bytes → U32 → Option Digest
  | 0, _, _, _ => none
  | fuel + 1, d, data, databitlen =>
    if databitlen + d.count < BitVec.ofNat 32 c.inputsize then
      if d.count &&& 7 = 0 then
        let buffer := if databitlen > 0 then goCopy d.buffer (d.count >>> 3).toNat (data.take (((databitlen - 1) >>> 3).toNat + 1)) else d.buffer
        some { d with buffer := buffer, databitlen := d.databitlen + databitlen.setWidth 64, count := d.count + databitlen }
      else none
    else
      if d.count &&& 7 = 0 then
        let tmp := BitVec.ofNat 32 c.inputsize - d.count
        let d := { d with buffer := goCopy d.buffer (d.count >>> 3).toNat (data.take (tmp >>> 3).toNat), databitlen := d.databitlen + tmp.setWidth 64, count := d.count + tmp }
        let d := d.performHash pi c
        Digest.writeBits pi c fuel d (data.drop (tmp >>> 3).toNat) (databitlen - tmp)
      else none

/-- digest.go:115-122 -/
def Digest.write (pi : Nat → Byte) (c : Cfg) (d : Digest) (data : Bytes) : Option Digest :=
  d.writeBits pi c (8 * data.length + 2) data (BitVec.ofNat 32 (8 * data.length))

/-- `byte(databitlen>>(8*i))` for i = 0 … 7 at descending positions (digest.go:227-229, 237-239) is the big-endian encoding. -/
def lenBytes (n : U64) : Bytes := be64 n

/-- digest.go:215-252 (after digest.go:208-213 copied the object). -/
def Digest.checkSum (pi : Nat → Byte) (c : Cfg) (d : Digest) : Option Bytes :=
  let databitlen := d.databitlen
  let fuel := 8 * c.inputsize + 2
  let d' :=
    if d.count + 65 > BitVec.ofNat 32 c.inputsize then
      let padding := (zeros (c.inputsize >>> 3)).set 0 (1 <<< 7)
      match d.writeBits pi c fuel padding (BitVec.ofNat 32 c.inputsize - d.count) with
      | none => none
      | some d =>
        let padding := goCopy (padding.set 0 0) ((c.inputsize >>> 3) - 8) (lenBytes databitlen)
        d.writeBits pi c fuel padding (BitVec.ofNat 32 c.inputsize)
    else
      let padding := (zeros (((BitVec.ofNat 32 c.inputsize - d.count) >>> 3).toNat + 1)).set 0 (1 <<< 7)
      match d.writeBits pi c fuel padding (BitVec.ofNat 32 c.inputsize - d.count - 64) with
      | none => none
      | some d =>
        let padding := goCopy padding 0 (lenBytes databitlen)
        d.writeBits pi c fuel padding 64
  match d' with
  | none => none
  | some d =>
    let whirlOutput := (Whirlpool.reset.write Whirlpool.tables (d.syndrome.take (c.r >>> 3))).checkSum Whirlpool.tables
    some (whirlOutput.take (c.hashbitlen >>> 3))

/-- digest.go:36-56: New; the error for other sizes. -/
def new (hashbitlen : Int) : Option Cfg := parameters.find? fun c => hashbitlen = c.hashbitlen

/-- digest.go:58, 107-122, 208-213 -/
def impl (pi : Nat → Byte) (c : Cfg) : HashImpl Digest where
  write d p := (d.write pi c p).map fun d => (d, p.length)
  sum d b := (d.checkSum pi c).map fun h => (d, b ++ h)
  reset _ := reset c
  size _ := c.hashbitlen >>> 3
  blockSize _ := c.inputsize >>> 3

end Verif.FSB
