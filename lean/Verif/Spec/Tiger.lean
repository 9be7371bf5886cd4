import Verif.Padding
/-
Tiger and Tiger2, written from Anderson and Biham, "Tiger: A Fast New Hash Function" (1996).
The four S-boxes, which the paper gives as the output of a program, are a parameter.
-/
namespace Verif.Spec.Tiger

/-- The S-boxes. -/
structure SBoxes where
  (t1 t2 t3 t4 : Byte → U64)

/-- Byte `i` of a word (0 the least significant). -/
def byte (w : U64) (i : Nat) : Byte := w.extractLsb' (8 * i) 8

/-- One round on `(a, b, c)`, followed by the change of roles of the three registers. -/
def round (S : SBoxes) (r : U64 × U64 × U64) (x mul : U64) : U64 × U64 × U64 :=
  let (a, b, c) := r
  let c := c ^^^ x
  let a := a - (S.t1 (byte c 0) ^^^ S.t2 (byte c 2) ^^^ S.t3 (byte c 4) ^^^ S.t4 (byte c 6))
  let b := (b + (S.t4 (byte c 1) ^^^ S.t3 (byte c 3) ^^^ S.t2 (byte c 5) ^^^ S.t1 (byte c 7))) * mul
  (b, c, a)

/-- Eight rounds with one multiplier. -/
def pass (S : SBoxes) (mul : U64) (r : U64 × U64 × U64) (x : List U64) : U64 × U64 × U64 :=
  x.foldl (fun r x => round S r x mul) r

/-- The key schedule. -/
def keySchedule : List U64 → List U64
  | [x0, x1, x2, x3, x4, x5, x6, x7] =>
    -- first pass
    let y0 := x0 - (x7 ^^^ 0xa5a5a5a5a5a5a5a5#64)
    let y1 := x1 ^^^ y0
    let y2 := x2 + y1
    let y3 := x3 - (y2 ^^^ ((~~~ y1) <<< 19))
    let y4 := x4 ^^^ y3
    let y5 := x5 + y4
    let y6 := x6 - (y5 ^^^ ((~~~ y4) >>> 23))
    let y7 := x7 ^^^ y6
    -- second pass
    let z0 := y0 + y7
    let z1 := y1 - (z0 ^^^ ((~~~ y7) <<< 19))
    let z2 := y2 ^^^ z1
    let z3 := y3 + z2
    let z4 := y4 - (z3 ^^^ ((~~~ z2) >>> 23))
    let z5 := y5 ^^^ z4
    let z6 := y6 + z5
    let z7 := y7 - (z6 ^^^ 0x0123456789abcdef#64)
    [z0, z1, z2, z3, z4, z5, z6, z7]
  | x => x

def words (blk : Bytes) : List U64 := (List.range 8).map fun i => getLE64 blk (8 * i)

/-- The compression function: 24 rounds and the feed-forward. -/
def compress (S : SBoxes) (h : U64 × U64 × U64) (blk : Bytes) : U64 × U64 × U64 :=
  let x := words blk
  let r := pass S 5 h x
  let r := pass S 7 r (keySchedule x)
  let r := pass S 9 r (keySchedule (keySchedule x))
  (r.1 ^^^ h.1, r.2.1 - h.2.1, r.2.2 + h.2.2)

/-- Padding: marker 0x01 in Tiger, 0x80 in Tiger2; little-endian bit count. -/
def pad (marker : Byte) (m : Bytes) : Bytes :=
  mdPad 64 marker (le64 (BitVec.ofNat 64 (8 * m.length))) m

/-- Tiger/192 for marker 0x01, Tiger2/192 for marker 0x80. -/
def hash (S : SBoxes) (marker : Byte) (m : Bytes) : Bytes :=
  let r := (fullBlocks 64 (pad marker m)).foldl (compress S)
    (0x0123456789abcdef#64, 0xfedcba9876543210#64, 0xf096a5b4c3b2e187#64)
  le64 r.1 ++ le64 r.2.1 ++ le64 r.2.2

end Verif.Spec.Tiger
