import Verif.Model.HamsiProg
import Verif.HashAPI
/-
Package hamsi (hamsi/digest256.go, hamsi/digest512.go, hamsi/sbox.go, hamsi/hamsi.go).  The types digest256 and digest512 differ in
the length B of a block, the number of words and the programs; they are modelled once, with these as parameters.
-/
namespace Verif.Hamsi

structure Cfg where
  /-- bytes of a block -/
  B : Nat
  Tsrc : List (List U32)
  alphaN : List U32
  alphaF : List U32
  /-- rounds of process, with their numbers -/
  progN : List (Nat × List Ins)
  /-- rounds of processFinal -/
  progF : List (Nat × List Ins)
  outs : List Nat
  blockSize : Nat

/-- hamsi/digest256.go:166-621, 623-816 -/
def cfg256 : Cfg := ⟨4, Tsrc256, ALPHA_N256, ALPHA_F256, rounds256, (List.range 6).map (fun r => (r, final256)), outs256, 32⟩
/-- hamsi/digest512.go:179-662, 664-1148 -/
def cfg512 : Cfg := ⟨8, Tsrc512, ALPHA_N512, ALPHA_F512, (List.range 6).map (fun r => (r, round512)), (List.range 12).map (fun r => (r, final512)), outs512, 32⟩

/-- hamsi/sbox.go:70-91, 390-411: T[y][z] of the table made with x (the tables are made once, before the first use). -/
def makeT (src : List (List U32)) (x y z : Nat) : U32 :=
  forLoop 0 8 (fun a k => if y &&& (1 <<< (7 - k)) ≠ 0 then a ^^^ (src.getD (x + k) []).getD z 0 else a) 0

/-- The registers. -/
abbrev Regs := Nat → U32
def Regs.upd (R : Regs) (a : Nat) (x : U32) : Regs := fun r => if r = a then x else R r

/-- One statement; `al` is the table of constants, `rc` the number of the round. -/
def exec1 (al : List U32) (rc : Nat) (R : Regs) : Ins → Regs
  | .xk a i => R.upd a (R a ^^^ al.getD i 0)
  | .xkr a i => R.upd a (R a ^^^ (al.getD i 0 ^^^ BitVec.ofNat 32 rc))
  | .mov a b => R.upd a (R b)
  | .and a b => R.upd a (R a &&& R b)
  | .or a b => R.upd a (R a ||| R b)
  | .xor a b => R.upd a (R a ^^^ R b)
  | .not a b => R.upd a (~~~ R b)
  | .rol a n => R.upd a ((R a <<< n) ||| (R a >>> (32 - n)))
  | .xor2 a b c => R.upd a (R a ^^^ (R b ^^^ R c))
  | .xors a b c n => R.upd a (R a ^^^ (R b ^^^ (R c <<< n)))
def exec (al : List U32) (rc : Nat) (R : Regs) (p : List Ins) : Regs := p.foldl (exec1 al rc) R

variable (c : Cfg)

/-- The words m0, m1, ... : hamsi/digest256.go:167-201, hamsi/digest512.go:183-318 (and the same lines of processFinal). -/
def loadM (b : Bytes) (z : Nat) : U32 :=
  forLoop 1 c.B (fun a q => a ^^^ makeT c.Tsrc (8 * q) (at8 b q).toNat z) (makeT c.Tsrc 0 (at8 b 0).toNat z)

/-- The registers before the first round (hamsi/digest256.go:203-214). -/
def regs0 (s : List U32) (b : Bytes) : Regs := fun r => if r < 16 then loadM c b r else if r < 32 then s.getD (r - 16) 0 else 0

/-- hamsi/digest256.go:166-621, hamsi/digest512.go:179-662 -/
def process (s : List U32) (b : Bytes) : List U32 :=
  let R := c.progN.foldl (fun R p => exec c.alphaN p.1 R p.2) (regs0 c s b)
  (List.range c.outs.length).map fun z => s.getD z 0 ^^^ R (c.outs.getD z 0)
/-- hamsi/digest256.go:623-816, hamsi/digest512.go:664-1148 -/
def processFinal (s : List U32) (b : Bytes) : List U32 :=
  let R := c.progF.foldl (fun R p => exec c.alphaF p.1 R p.2) (regs0 c s b)
  (List.range c.outs.length).map fun z => s.getD z 0 ^^^ R (c.outs.getD z 0)

/-- hamsi/digest256.go:18-29, hamsi/digest512.go:18-29.  partial is a uint32 resp. uint64; x and nx are never used; left out. -/
structure Digest where
  s : List U32
  len : U64
  partialW : BitVec (8 * c.B)
  partialLen : Nat
  initVal : List U32
  hs : Nat

variable {c}

/-- hamsi/digest256.go:47-59, hamsi/digest512.go:47-59 -/
def reset (d : Digest c) : Digest c := { d with s := d.initVal, len := 0, partialW := 0, partialLen := 0 }
/-- hamsi/digest256.go:36-45, hamsi/digest512.go:36-45 -/
def newDigest (c : Cfg) (iv : List U32) (hs : Nat) : Digest c := reset ⟨[], 0, 0, 0, iv, hs⟩

/-- partial = (partial << 8) | p[off] -/
def shiftIn (a : BitVec (8 * c.B)) (b : Byte) : BitVec (8 * c.B) := (a <<< 8) ||| b.setWidth (8 * c.B)

/-- hamsi/digest256.go:77-82, hamsi/digest512.go:77-82: the loop that fills partial; the bytes left over. -/
def fill : BitVec (8 * c.B) → Nat → Bytes → BitVec (8 * c.B) × Nat × Bytes
  | a, n, [] => (a, n, [])
  | a, n, b :: p => if n < c.B then fill (shiftIn a b) (n + 1) p else (a, n, b :: p)

/-- The bytes of partial, the most significant first (hamsi/digest256.go:88-93, hamsi/digest512.go:88-97). -/
def bytesOf (a : BitVec (8 * c.B)) : Bytes := (List.range c.B).map fun i => (a >>> (8 * (c.B - 1 - i))).setWidth 8

/-- hamsi/digest256.go:97-115, hamsi/digest512.go:101-123: the part of Write after the partial block; the first loop runs len(q) / B times. -/
def writeRest (d : Digest c) (q : Bytes) : Digest c :=
  { d with
    s := forLoop 0 (q.length / c.B) (fun s i => process c s ((q.drop (c.B * i)).take c.B)) d.s
    partialLen := q.length - q.length / c.B * c.B
    partialW := (q.drop (q.length / c.B * c.B)).foldl shiftIn d.partialW }

/-- hamsi/digest256.go:69-117, hamsi/digest512.go:69-125 -/
def write (d : Digest c) (p : Bytes) : Digest c × Nat :=
  let d := { d with len := d.len + (BitVec.ofNat 64 p.length) <<< 3 }
  if d.partialLen ≠ 0 then
    let f := fill d.partialW d.partialLen p
    let d := { d with partialW := f.1, partialLen := f.2.1 }
    if d.partialLen < c.B then (d, p.length)
    else (writeRest { d with s := process c d.s (bytesOf d.partialW), partialLen := 0 } f.2.2, p.length)
  else (writeRest d p, p.length)

/-- hamsi/digest256.go:131-133, hamsi/digest512.go:139-141: `for d.partialLen != 0 { d.Write([]byte{0}) }`, with a bound on the number of
turns; none when the bound does not suffice. -/
def zeroFill : Nat → Digest c → Option (Digest c)
  | 0, _ => none
  | n + 1, d => if d.partialLen ≠ 0 then zeroFill n (write d [0]).1 else some d

/-- hamsi/digest256.go:152-161, hamsi/digest512.go:166-175: the loop that writes the words; state (ch, j, out). -/
def outLoop (w : Nat → U32) (n : Nat) : Bytes :=
  (forLoop 0 n (fun (st : U32 × Nat × Bytes) i =>
    let st := if i &&& 3 = 0 then (w st.2.1, st.2.1 + 1, st.2.2) else st
    (st.1 <<< 8, st.2.1, st.2.2 ++ [(st.1 >>> 24).setWidth 8])) (0, 0, [])).2.2

/-- The bytes of the bit count, `uint32(bitCount >> 56) & 0xFF`, ... -/
def countBytes (n : U64) : Bytes := (List.range 8).map fun i => (n >>> (56 - 8 * i)).setWidth 8

/-- hamsi/digest256.go:126-164, hamsi/digest512.go:134-177.  In digest256 the count is two blocks, in digest512 one. -/
def checkSum (d : Digest c) : Option Bytes := do
  let bitCount := d.len
  let d := (write d [0x80]).1
  let d ← zeroFill (c.B + 1) d
  let d := if c.B = 4 then { d with s := process c d.s ((countBytes bitCount).take 4) } else d
  let s := processFinal c d.s ((countBytes bitCount).drop (8 - c.B))
  if c.B = 4 then some (outLoop (fun j => s.getD j 0) d.hs)
  else
    let hoff := if d.hs = 48 then HOFF384 else HOFF512
    some (outLoop (fun j => s.getD (hoff.getD j 0) 0) d.hs)

/-- The methods; Sum (hamsi/digest256.go:119-124, hamsi/digest512.go:127-132) works on a copy. -/
def impl (c : Cfg) : HashImpl (Digest c) where
  write d p := some (write d p)
  sum d b := (checkSum d).map fun h => (d, b ++ h)
  reset d := reset d
  size d := d.hs
  blockSize _ := c.blockSize

/-- hamsi/hamsi.go:8-10 -/
def new224 : Digest cfg256 := newDigest cfg256 iv224 28
/-- hamsi/hamsi.go:13-15 -/
def new256 : Digest cfg256 := newDigest cfg256 iv256 32
/-- hamsi/hamsi.go:18-20 -/
def new384 : Digest cfg512 := newDigest cfg512 iv384 48
/-- hamsi/hamsi.go:23-25 -/
def new512 : Digest cfg512 := newDigest cfg512 iv512 64

/-- hamsi/hamsi.go:28-65 -/
def sumOf (d : Digest c) (size : Nat) (data : Bytes) : Option Bytes := (checkSum (write d data).1).map fun h => goCopy (zeros size) 0 h

end Verif.Hamsi
