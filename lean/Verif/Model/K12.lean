import Verif.HashAPI
import Verif.Model.Keccak
/-
k12: the sponge (sponge.go, xor.go), the tree hash (digest.go) and utils.go.  The permutation is the generic one (keccakf.go); the
assembly version is not modelled.  xorIn and copyOut are modelled through the little-endian words, as in the big-endian branch; the
branch for little-endian machines copies the same bytes through unsafe pointers.
-/
namespace Verif.K12
open Verif.Keccak

/-- k12/sponge.go:27-52 `state` (rate is always 168) -/
structure Sponge where
  a : List U64
  dsbyte : Byte
  i : Nat
  n : Nat
  storage : Bytes
  squeezing : Bool

/-- k12/xor.go:16-27 `xorIn` -/
def xorIn (a : List U64) (buf : Bytes) : List U64 :=
  forLoop 0 (buf.length / 8) (fun a i => a.set i (a.getD i 0 ^^^ getLE64 buf (8 * i))) a
/-- k12/xor.go:30-40 `copyOut` into `b` of 168 bytes -/
def copyOut (a : List U64) : Bytes := ((a.take 21).map le64).flatten

/-- k12/sponge.go:62-69 `Reset` -/
def Sponge.reset (d : Sponge) : Sponge := { d with a := List.replicate 25 0, squeezing := false, i := 0, n := 0 }

/-- k12/sponge.go:78-93 `permute` -/
def Sponge.permute (d : Sponge) : Sponge :=
  if d.squeezing then
    let a := keccakF1600 12 d.a
    { d with a := a, i := 0, storage := copyOut a }
  else { d with a := keccakF1600 12 (xorIn d.a (d.storage.take 168)), n := 0 }

/-- k12/sponge.go:97-117 `padAndPermute` -/
def Sponge.padAndPermute (d : Sponge) : Sponge :=
  let st := d.storage.set d.n d.dsbyte
  let st := forLoop (d.n + 1) 168 (fun s j => s.set j 0#8) st
  let st := st.set 167 (at8 st 167 ^^^ 0x80#8)
  let d := Sponge.permute { d with storage := st, n := 168 }
  { d with squeezing := true, n := 168, storage := copyOut d.a }

/-- k12/sponge.go:129-149: the loop of `Write`; at least one byte goes in each time round. -/
def Sponge.writeLoop : Nat → Sponge → Bytes → Sponge
  | 0, d, _ => d
  | fuel + 1, d, p =>
    if p.length = 0 then d
    else if d.n = 0 ∧ 168 ≤ p.length then
      writeLoop fuel { d with a := keccakF1600 12 (xorIn d.a (p.take 168)) } (p.drop 168)
    else
      let todo := min (168 - d.n) p.length
      let d := { d with storage := goCopy d.storage d.n (p.take todo), n := d.n + todo }
      writeLoop fuel (if d.n = 168 then d.permute else d) (p.drop todo)
/-- k12/sponge.go:121-152 `Write`; after a Read the data are refused and 0 is returned. -/
def Sponge.write (d : Sponge) (p : Bytes) : Sponge × Nat :=
  if d.squeezing then (d, 0) else (Sponge.writeLoop p.length d p, p.length)

/-- k12/sponge.go:164-173: the loop of `Read`; `want` bytes are still to come. -/
def Sponge.readLoop : Nat → Sponge → Nat → Bytes → Sponge × Bytes
  | 0, d, _, acc => (d, acc)
  | fuel + 1, d, want, acc =>
    if want = 0 then (d, acc)
    else
      let k := min want (d.n - d.i)
      let acc := acc ++ (d.storage.drop d.i).take k
      let d := { d with i := d.i + k }
      readLoop fuel (if d.i = 168 then d.permute else d) (want - k) acc
/-- k12/sponge.go:155-176 `Read` of `want` bytes -/
def Sponge.read (d : Sponge) (want : Nat) : Sponge × Bytes :=
  let d := if d.squeezing then d else d.padAndPermute
  Sponge.readLoop (want + 1) d want []

/-- k12/utils.go:8-25 `rightEncode` -/
def rightEncode (v : U64) : Bytes :=
  let input := be64 v ++ [0#8]
  let offset := if v = 0 then 8 else (List.range 9).find? (fun i => at8 input i ≠ 0) |>.getD 9
  (input.set 8 (BitVec.ofNat 8 (8 - offset))).drop offset

/-- k12/digest.go:13-22 `digest` -/
structure Digest where
  customString : Bytes
  squeezing : Bool
  state : Sponge
  numChunk : Nat
  currentChunk : Sponge
  currentWritten : Nat
  tempChunkOutput : Bytes
  hashSize : Int

/-- k12/digest.go:38-42 `Reset` -/
def Digest.reset (t : Digest) : Digest :=
  { t with state := t.state.reset, currentChunk := t.currentChunk.reset, squeezing := false }

/-- k12/digest.go:25-35 `newDigest` -/
def newDigest (c : Bytes) (hs : Int) : Digest :=
  Digest.reset ⟨c, false, ⟨List.replicate 25 0, 0, 0, 0, zeros 168, false⟩, 0, ⟨List.replicate 25 0, 0x0b, 0, 0, zeros 168, false⟩, 0, zeros 32, hs⟩

/-- k12/digest.go:62-77: the end of a chunk. -/
def Digest.nextChunk (t : Digest) : Digest :=
  if t.currentWritten = 8192 then
    if t.numChunk = 0 then
      { t with state := (t.state.write [0x03, 0, 0, 0, 0, 0, 0, 0]).1, currentWritten := 0, numChunk := t.numChunk + 1 }
    else
      let (c, o) := t.currentChunk.read 32
      { t with tempChunkOutput := o, state := (t.state.write o).1, currentChunk := c.reset, currentWritten := 0, numChunk := t.numChunk + 1 }
  else t
/-- k12/digest.go:85-92: the data that the chunk takes. -/
def Digest.absorb (t : Digest) (q : Bytes) : Digest :=
  if t.numChunk = 0 then
    let (s, w) := t.state.write q
    { t with state := s, currentWritten := t.currentWritten + w }
  else
    let (s, w) := t.currentChunk.write q
    { t with currentChunk := s, currentWritten := t.currentWritten + w }
/-- k12/digest.go:61-96: the loop of `Write`. -/
def Digest.writeLoop : Nat → Digest → Bytes → Digest
  | 0, t, _ => t
  | fuel + 1, t, p =>
    if p.length = 0 then t
    else
      let t := t.nextChunk
      let xx := if 8192 - t.currentWritten > p.length then p.length else 8192 - t.currentWritten
      writeLoop fuel (t.absorb (p.take xx)) (p.drop xx)
/-- k12/digest.go:53-99 `Write`; an error (with 0 bytes written) after a Read. -/
def Digest.write (t : Digest) (p : Bytes) : Digest × Nat :=
  if t.squeezing then (t, 0) else (Digest.writeLoop p.length t p, p.length)

/-- k12/digest.go:117-137: the end of the absorbing phase. -/
def Digest.finish (t : Digest) : Digest :=
  let t := (t.write t.customString).1
  let t := (t.write (rightEncode (BitVec.ofNat 64 t.customString.length))).1
  if t.numChunk = 0 then
    { t with state := { t.state with dsbyte := 0x07 }, squeezing := true }
  else
    let (c, o) := t.currentChunk.read 32
    let s := (t.state.write o).1
    let s := (s.write (rightEncode (BitVec.ofNat 64 t.numChunk))).1
    let s := (s.write [0xff, 0xff]).1
    { t with tempChunkOutput := o, currentChunk := c, state := { s with dsbyte := 0x06 }, squeezing := true }
/-- k12/digest.go:115-143 `Read` of `want` bytes -/
def Digest.read (t : Digest) (want : Nat) : Digest × Bytes :=
  let t := if t.squeezing then t else t.finish
  let (s, o) := t.state.read want
  ({ t with state := s }, o)

/-- k12/digest.go:101-112 `Sum`, `checkSum` on a clone (145-154); `none` is the panic of `make` with a negative size. -/
def Digest.sum (t : Digest) (b : Bytes) : Option Bytes :=
  if t.hashSize < 0 then none else some (b ++ (t.read t.hashSize.toNat).2)

def impl : HashImpl Digest where
  write t p := some (t.write p)
  sum t b := (t.sum b).map fun r => (t, r)
  reset := Digest.reset
  size t := t.hashSize.toNat
  blockSize _ := 8192

end Verif.K12
