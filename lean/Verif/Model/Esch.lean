import Verif.Lazy
/-
Model of package esch: digest.go, utils.go, sbox.go.
-/
namespace Verif.Esch

/-- esch/sbox.go:3-6 -/
def C : List U32 := [
    0xb7e15162, 0xbf715880, 0x38b4da56, 0x324e7738,
    0xbb1185eb, 0x4f7c7b57, 0xcfbfa1c8, 0xc2b3293d]

/-- esch/utils.go:52-54 `rotater32`: `rotatel32(x, 32 - n)` -/
def rotater32 (x : U32) (n : Nat) : U32 := x.rotateLeft (32 - n)

/-- esch/utils.go:67-80: the body of the loop over `j`, on `H[px]`, `H[py]`. -/
def box (c x y : U32) : U32 × U32 :=
  let x := x + rotater32 y 31
  let y := y ^^^ rotater32 x 24
  let x := x ^^^ c
  let x := x + rotater32 y 17
  let y := y ^^^ rotater32 x 17
  let x := x ^^^ c
  let x := x + y
  let y := y ^^^ rotater32 x 31
  let x := x ^^^ c
  let x := x + rotater32 y 24
  let y := y ^^^ rotater32 x 16
  let x := x ^^^ c
  (x, y)
/-- esch/utils.go:61-62 -/
def constants (s : Nat) (H : List U32) : List U32 :=
  let H := H.set 1 (H.getD 1 0 ^^^ C.getD (s % 8) 0)
  H.set 3 (H.getD 3 0 ^^^ BitVec.ofNat 32 s)
/-- esch/utils.go:64-84: `px = 2j`, `py = 2j + 1`. -/
def boxes (rounds : Nat) (H : List U32) : List U32 :=
  forLoop 0 rounds (fun H j =>
    let (x, y) := box (C.getD j 0) (H.getD (2 * j) 0) (H.getD (2 * j + 1) 0)
    (H.set (2 * j) x).set (2 * j + 1) y) H
/-- esch/utils.go:96-102: `j = rounds + i`, `i` runs over the even numbers. -/
def mixLoop (rounds : Nat) (x y : U32) (H : List U32) : List U32 :=
  forLoop 0 (rounds / 2) (fun H k =>
    let i := 2 * k
    let j := rounds + i
    let H := H.set j (H.getD j 0 ^^^ (H.getD i 0 ^^^ y))
    H.set (j + 1) (H.getD (j + 1) 0 ^^^ (H.getD (i + 1) 0 ^^^ x))) H
/-- esch/utils.go:86-102 -/
def mix (rounds : Nat) (H : List U32) : List U32 :=
  let x := H.getD 0 0 ^^^ H.getD 2 0 ^^^ H.getD 4 0
  let y := H.getD 1 0 ^^^ H.getD 3 0 ^^^ H.getD 5 0
  let x := if rounds > 6 then x ^^^ H.getD 6 0 else x
  let y := if rounds > 6 then y ^^^ H.getD 7 0 else y
  let x := rotater32 (x ^^^ (x <<< 16)) 16
  let y := rotater32 (y ^^^ (y <<< 16)) 16
  mixLoop rounds x y H
/-- esch/utils.go:104-115 -/
def shuffle (rounds : Nat) (H : List U32) : List U32 :=
  let x := H.getD rounds 0
  let y := H.getD (rounds + 1) 0
  let H := forLoop 0 (rounds - 2) (fun H i =>
    let H := H.set (i + rounds) (H.getD i 0)
    H.set i (H.getD (i + rounds + 2) 0)) H
  let H := H.set (rounds * 2 - 2) (H.getD (rounds - 2) 0)
  let H := H.set (rounds * 2 - 1) (H.getD (rounds - 1) 0)
  let H := H.set (rounds - 2) x
  H.set (rounds - 1) y
/-- esch/utils.go:56-116 `sparkle` -/
def sparkle (rounds ns : Nat) (H : List U32) : List U32 :=
  forLoop 0 ns (fun H s => shuffle rounds (mix rounds (boxes rounds (constants s H)))) H

/-- esch/digest.go:17-24; `len` is only ever written, except as a flag inside `checkSum` (see there);
`hs` is a parameter, `bs` is unused. -/
structure Digest where
  s : List U32
  x : Bytes
  nx : Nat

/-- esch/digest.go:160-179, the injection of block `blk`. -/
def inject (hs : Nat) (s : List U32) (data : Bytes) (blk : Nat) : List U32 :=
  let m0 := getLE32 data (16 * blk)
  let m1 := getLE32 data (16 * blk + 4)
  let m2 := getLE32 data (16 * blk + 8)
  let m3 := getLE32 data (16 * blk + 12)
  let x := m0 ^^^ m2
  let y := m1 ^^^ m3
  let x := rotater32 (x ^^^ (x <<< 16)) 16
  let y := rotater32 (y ^^^ (y <<< 16)) 16
  let s := s.set 0 (s.getD 0 0 ^^^ m0 ^^^ y)
  let s := s.set 1 (s.getD 1 0 ^^^ m1 ^^^ x)
  let s := s.set 2 (s.getD 2 0 ^^^ m2 ^^^ y)
  let s := s.set 3 (s.getD 3 0 ^^^ m3 ^^^ x)
  let s := s.set 4 (s.getD 4 0 ^^^ y)
  let s := s.set 5 (s.getD 5 0 ^^^ x)
  if hs > 256 then
    let s := s.set 6 (s.getD 6 0 ^^^ y)
    s.set 7 (s.getD 7 0 ^^^ x)
  else s
/-- esch/digest.go:152-201 `transform` -/
def transform (hs : Nat) (s : List U32) (data : Bytes) (numBlks : Nat) (last : Bool) : List U32 :=
  forLoop 0 numBlks (fun s blk =>
    let s := inject hs s data blk
    let steps := if last then 11 else 7
    let steps := if hs > 256 then steps + 1 else steps
    let r := if hs > 256 then 8 else 6
    sparkle r steps s) s

/-- esch/digest.go:27-41 `newDigest` and 43-54 `Reset`; `none` is the error. -/
def new (hashsize : Int) : Option Digest :=
  if hashsize = 0 then none
  else if hashsize ≠ 256 ∧ hashsize ≠ 384 then none
  else some { s := List.replicate 16 0, x := zeros 128, nx := 0 }
/-- esch/digest.go:43-54 `Reset` -/
def reset (_ : Digest) : Digest := { s := List.replicate 16 0, x := zeros 128, nx := 0 }

/-- esch/digest.go:71-82: completing a partial block. -/
def fill (hs : Nat) (d : Digest) (p : Bytes) : Digest × Bytes :=
  if 0 < d.nx ∧ 16 ≤ d.nx + p.length then
    let xx := 16 - d.nx
    let x := goCopy d.x d.nx p
    ({ s := transform hs d.s x 1 false, x := x, nx := 0 : Digest }, p.drop xx)
  else (d, p)
/-- esch/digest.go:84-92: whole blocks, all but the last. -/
def bulk (hs : Nat) (d : Digest) (p : Bytes) : Digest × Bytes :=
  if 16 < p.length then
    let blocks := (p.length - 1) / 16
    let bytes := blocks * 16
    ({ d with s := transform hs d.s (p.take bytes) blocks false }, p.drop bytes)
  else (d, p)
/-- esch/digest.go:94-97: the rest goes into the buffer. -/
def keep (d : Digest) (p : Bytes) : Digest := { d with x := goCopy d.x d.nx p, nx := d.nx + p.length }
/-- esch/digest.go:64-100 `Write` -/
def write (hs : Nat) (d : Digest) (p : Bytes) : Digest :=
  let r := fill hs d p
  let r := bulk hs r.1 r.2
  keep r.1 r.2

/-- esch/digest.go:126-147, the output loop: `first` is the flag `d.len`, `n` the number of bytes
still to produce; the first argument bounds the number of iterations. -/
def output (hs : Nat) : Nat → List U32 → Bool → Nat → Bytes
  | 0, _, _, _ => []
  | fuel + 1, s, first, n =>
    if 0 < n then
      let r := if hs > 256 then 8 else 6
      let ns := if hs > 256 then 8 else 7
      let s := if first then s else sparkle r ns s
      let nx := min n 16
      (s.map le32).flatten.take nx ++ output hs fuel s false (n - nx)
    else []
/-- esch/digest.go:109-150 `checkSum` -/
def checkSum (hs : Nat) (d : Digest) : Bytes :=
  let i := (hs + 128) / 64 - 1
  let x := if d.nx < 16 then (goCopy d.x d.nx (zeros 128)).set d.nx 0x80#8 else d.x
  let s := if d.nx < 16 then d.s.set i (d.s.getD i 0 ^^^ 0x1000000) else d.s.set i (d.s.getD i 0 ^^^ 0x2000000)
  let s := transform hs s x 1 true
  output hs (hs / 8) s true (hs / 8)

/-- The methods; `Sum` works on a copy (digest.go:102-107). -/
def impl (hs : Nat) : HashImpl Digest where
  write d p := some (write hs d p, p.length)
  sum d b := some (d, b ++ checkSum hs d)
  reset := reset
  size _ := hs / 8
  blockSize _ := 16

end Verif.Esch
