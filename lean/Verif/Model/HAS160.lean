import Verif.BufDigest
/-
Model of package has160: digest.go, sbox.go, utils.go.
-/
namespace Verif.HAS160

/-- has160/sbox.go:4-10 -/
def initH : List U32 := [0x67452301#32, 0xefcdab89#32, 0x98badcfe#32, 0x10325476#32, 0xc3d2e1f0#32]
/-- has160/sbox.go:12 -/
def s1 : List Nat := [5, 11, 7, 15, 6, 13, 8, 14, 7, 12, 9, 11, 8, 15, 6, 12, 9, 14, 5, 13]
/-- has160/sbox.go:14 -/
def x1 : List Nat := [18, 0, 1, 2, 3, 19, 4, 5, 6, 7, 16, 8, 9, 10, 11, 17, 12, 13, 14, 15]
/-- has160/sbox.go:15 -/
def x2 : List Nat := [18, 3, 6, 9, 12, 19, 15, 2, 5, 8, 16, 11, 14, 1, 4, 17, 7, 10, 13, 0]
/-- has160/sbox.go:16 -/
def x3 : List Nat := [18, 12, 5, 14, 7, 19, 0, 9, 2, 11, 16, 4, 13, 6, 15, 17, 8, 1, 10, 3]
/-- has160/sbox.go:17 -/
def x4 : List Nat := [18, 7, 2, 13, 8, 19, 3, 14, 9, 4, 16, 15, 10, 5, 0, 17, 11, 6, 1, 12]

/-- has160/utils.go:46-48 -/
def rol (x : U32) (n : Nat) : U32 := x.rotateLeft n

/-- has160/utils.go:50-53 -/
def f1 (h : List U32) (a b c d e : Nat) (x : List U32) (j : Nat) : List U32 :=
  let g n := h.getD n 0
  let h := h.set e (g e + (rol (g a) (s1.getD j 0) + x.getD (x1.getD j 0) 0 + 0x00000000#32 +
    ((g b &&& g c) ||| ((~~~ (g b)) &&& g d))))
  h.set b (rol (h.getD b 0) 10)
/-- has160/utils.go:55-58 -/
def f2 (h : List U32) (a b c d e : Nat) (x : List U32) (j : Nat) : List U32 :=
  let g n := h.getD n 0
  let h := h.set e (g e + (rol (g a) (s1.getD j 0) + x.getD (x2.getD j 0) 0 + 0x5a827999#32 +
    (g b ^^^ g c ^^^ g d)))
  h.set b (rol (h.getD b 0) 17)
/-- has160/utils.go:60-63 -/
def f3 (h : List U32) (a b c d e : Nat) (x : List U32) (j : Nat) : List U32 :=
  let g n := h.getD n 0
  let h := h.set e (g e + (rol (g a) (s1.getD j 0) + x.getD (x3.getD j 0) 0 + 0x6ed9eba1#32 +
    (g c ^^^ (g b ||| (~~~ (g d))))))
  h.set b (rol (h.getD b 0) 25)
/-- has160/utils.go:65-68 -/
def f4 (h : List U32) (a b c d e : Nat) (x : List U32) (j : Nat) : List U32 :=
  let g n := h.getD n 0
  let h := h.set e (g e + (rol (g a) (s1.getD j 0) + x.getD (x4.getD j 0) 0 + 0x8f1bbcdc#32 +
    (g b ^^^ g c ^^^ g d)))
  h.set b (rol (h.getD b 0) 30)

/-- `x := make([]uint32, 20); copy(x, bytesToUint32s(block))`, has160/digest.go:97-99 and
has160/utils.go:20-31 (the block has 64 bytes). -/
def loadX (block : Bytes) : List U32 :=
  (List.range 16).map (fun i => getLE32 block (i * 4)) ++ List.replicate 4 0#32

/-- Assignment of `x[16..19]` from four message words each (has160/digest.go:107-110, 117-120,
127-130, 137-140). -/
def setX (x : List U32) (p16 p17 p18 p19 : Nat × Nat × Nat × Nat) : List U32 :=
  let q (x : List U32) (p : Nat × Nat × Nat × Nat) :=
    x.getD p.1 0 ^^^ x.getD p.2.1 0 ^^^ x.getD p.2.2.1 0 ^^^ x.getD p.2.2.2 0
  let x := x.set 16 (q x p16)
  let x := x.set 17 (q x p17)
  let x := x.set 18 (q x p18)
  x.set 19 (q x p19)

/-- has160/digest.go:96-150 `stepBlock`: the new `this.s`. -/
def stepBlock (s : List U32) (block : Bytes) : List U32 :=
  let x := loadX block
  let h := [s.getD 0 0, s.getD 1 0, s.getD 2 0, s.getD 3 0, s.getD 4 0]
  let x := setX x (0, 1, 2, 3) (4, 5, 6, 7) (8, 9, 10, 11) (12, 13, 14, 15)
  let h := forLoop 0 20 (fun h i => f1 h (4-(4+i)%5) (4-(3+i)%5) (4-(2+i)%5) (4-(1+i)%5) (4-i%5) x i) h
  let x := setX x (3, 6, 9, 12) (2, 5, 8, 15) (1, 4, 11, 14) (0, 7, 10, 13)
  let h := forLoop 0 20 (fun h i => f2 h (4-(4+i)%5) (4-(3+i)%5) (4-(2+i)%5) (4-(1+i)%5) (4-i%5) x i) h
  let x := setX x (5, 7, 12, 14) (0, 2, 9, 11) (4, 6, 13, 15) (1, 3, 8, 10)
  let h := forLoop 0 20 (fun h i => f3 h (4-(4+i)%5) (4-(3+i)%5) (4-(2+i)%5) (4-(1+i)%5) (4-i%5) x i) h
  let x := setX x (2, 7, 8, 13) (3, 4, 9, 14) (0, 5, 10, 15) (1, 6, 11, 12)
  let h := forLoop 0 20 (fun h i => f4 h (4-(4+i)%5) (4-(3+i)%5) (4-(2+i)%5) (4-(1+i)%5) (4-i%5) x i) h
  [s.getD 0 0 + h.getD 0 0, s.getD 1 0 + h.getD 1 0, s.getD 2 0 + h.getD 2 0,
   s.getD 3 0 + h.getD 3 0, s.getD 4 0 + h.getD 4 0]

/-- has160/digest.go:9-14 -/
abbrev Digest := BufDigest (List U32)

/-- has160/digest.go:31-39 `Reset` -/
def reset (_ : Digest) : Digest := { s := initH, x := zeros 64, nx := 0, len := 0 }
/-- has160/digest.go:17-21 `newDigest` -/
def new : Digest := reset { s := List.replicate 5 0, x := zeros 64, nx := 0, len := 0 }

/-- has160/digest.go:41-66 `Write`.  Simplification: the increments `this.len += xx` and
`this.len += plen`, which add up to `len(p)`, are one addition. -/
def write (d : Digest) (p : Bytes) : Digest := d.absorb 64 stepBlock p

/-- has160/digest.go:74-94 `checkSum` -/
def checkSum (d : Digest) : Bytes :=
  let x := d.x.set d.nx 0x80#8
  let nx := d.nx + 1
  let (s, x, nx) := if nx > 64 - 8 then
      let x := goCopy x nx (zeros 64)
      (stepBlock d.s x, x, 0)
    else (d.s, x, nx)
  let x := goCopy x nx (zeros 64)
  let x := goCopy x 56 (le64 (d.len * 8))
  let s := stepBlock s x
  (s.map le32).flatten

/-- has160/digest.go:68-72 `Sum` (on a copy), 23-29 `Size`, `BlockSize`. -/
def impl : HashImpl Digest where
  write d p := some (write d p, p.length)
  sum d b := some (d, b ++ checkSum d)
  reset := reset
  size _ := 20
  blockSize _ := 64

end Verif.HAS160
