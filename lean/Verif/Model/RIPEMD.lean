import Verif.BufferX
/-
Model of package ripemd: digest128.go, digest160.go, digest256.go, digest320.go, sbox.go.
-/
namespace Verif.RIPEMD

/-- ripemd/sbox.go:23-28 -/
def sbox128n0 : List Nat :=
  [0, 1, 2, 3, 4, 5, 6, 7, 8, 9, 10, 11, 12, 13, 14, 15,
   7, 4, 13, 1, 10, 6, 15, 3, 12, 0, 9, 5, 2, 14, 11, 8,
   3, 10, 14, 4, 9, 15, 8, 1, 2, 7, 0, 6, 13, 11, 5, 12,
   1, 9, 11, 10, 0, 8, 12, 4, 13, 3, 7, 15, 14, 5, 6, 2]
/-- ripemd/sbox.go:29-34 -/
def sbox128r0 : List Nat :=
  [11, 14, 15, 12, 5, 8, 7, 9, 11, 13, 14, 15, 6, 7, 9, 8,
   7, 6, 8, 13, 11, 9, 7, 15, 7, 12, 15, 9, 11, 7, 13, 12,
   11, 13, 6, 7, 14, 9, 13, 15, 14, 8, 13, 6, 5, 12, 7, 5,
   11, 12, 14, 15, 14, 15, 9, 8, 9, 14, 5, 6, 8, 6, 5, 12]
/-- ripemd/sbox.go:37-42 -/
def sbox128n1 : List Nat :=
  [5, 14, 7, 0, 9, 2, 11, 4, 13, 6, 15, 8, 1, 10, 3, 12,
   6, 11, 3, 7, 0, 13, 5, 10, 14, 15, 8, 12, 4, 9, 1, 2,
   15, 5, 1, 3, 7, 14, 6, 9, 11, 8, 12, 2, 10, 0, 4, 13,
   8, 6, 4, 1, 3, 11, 15, 0, 5, 12, 2, 13, 9, 7, 10, 14]
/-- ripemd/sbox.go:44-49 -/
def sbox128r1 : List Nat :=
  [8, 9, 9, 11, 13, 15, 15, 5, 7, 7, 8, 11, 14, 14, 12, 6,
   9, 13, 15, 7, 12, 8, 9, 11, 7, 7, 12, 7, 6, 15, 13, 11,
   9, 7, 15, 11, 8, 6, 6, 14, 12, 13, 5, 14, 13, 13, 7, 5,
   15, 5, 8, 11, 14, 14, 6, 14, 6, 9, 12, 9, 12, 5, 15, 8]
/-- ripemd/sbox.go:54-60 -/
def sbox160n0 : List Nat :=
  [0, 1, 2, 3, 4, 5, 6, 7, 8, 9, 10, 11, 12, 13, 14, 15,
   7, 4, 13, 1, 10, 6, 15, 3, 12, 0, 9, 5, 2, 14, 11, 8,
   3, 10, 14, 4, 9, 15, 8, 1, 2, 7, 0, 6, 13, 11, 5, 12,
   1, 9, 11, 10, 0, 8, 12, 4, 13, 3, 7, 15, 14, 5, 6, 2,
   4, 0, 5, 9, 7, 12, 2, 10, 14, 1, 3, 8, 11, 6, 15, 13]
/-- ripemd/sbox.go:61-67 -/
def sbox160r0 : List Nat :=
  [11, 14, 15, 12, 5, 8, 7, 9, 11, 13, 14, 15, 6, 7, 9, 8,
   7, 6, 8, 13, 11, 9, 7, 15, 7, 12, 15, 9, 11, 7, 13, 12,
   11, 13, 6, 7, 14, 9, 13, 15, 14, 8, 13, 6, 5, 12, 7, 5,
   11, 12, 14, 15, 14, 15, 9, 8, 9, 14, 5, 6, 8, 6, 5, 12,
   9, 15, 5, 11, 6, 8, 13, 12, 5, 12, 13, 14, 11, 8, 5, 6]
/-- ripemd/sbox.go:70-76 -/
def sbox160n1 : List Nat :=
  [5, 14, 7, 0, 9, 2, 11, 4, 13, 6, 15, 8, 1, 10, 3, 12,
   6, 11, 3, 7, 0, 13, 5, 10, 14, 15, 8, 12, 4, 9, 1, 2,
   15, 5, 1, 3, 7, 14, 6, 9, 11, 8, 12, 2, 10, 0, 4, 13,
   8, 6, 4, 1, 3, 11, 15, 0, 5, 12, 2, 13, 9, 7, 10, 14,
   12, 15, 10, 4, 1, 5, 8, 7, 6, 2, 13, 14, 0, 3, 9, 11]
/-- ripemd/sbox.go:78-84 -/
def sbox160r1 : List Nat :=
  [8, 9, 9, 11, 13, 15, 15, 5, 7, 7, 8, 11, 14, 14, 12, 6,
   9, 13, 15, 7, 12, 8, 9, 11, 7, 7, 12, 7, 6, 15, 13, 11,
   9, 7, 15, 11, 8, 6, 6, 14, 12, 13, 5, 14, 13, 13, 7, 5,
   15, 5, 8, 11, 14, 14, 6, 14, 6, 9, 12, 9, 12, 5, 15, 8,
   8, 5, 12, 9, 12, 5, 14, 6, 8, 13, 6, 5, 15, 13, 11, 11]
/-- ripemd/sbox.go:89-94 -/
def sbox256n0 : List Nat :=
  [0, 1, 2, 3, 4, 5, 6, 7, 8, 9, 10, 11, 12, 13, 14, 15,
   7, 4, 13, 1, 10, 6, 15, 3, 12, 0, 9, 5, 2, 14, 11, 8,
   3, 10, 14, 4, 9, 15, 8, 1, 2, 7, 0, 6, 13, 11, 5, 12,
   1, 9, 11, 10, 0, 8, 12, 4, 13, 3, 7, 15, 14, 5, 6, 2]
/-- ripemd/sbox.go:96-101 -/
def sbox256r0 : List Nat :=
  [11, 14, 15, 12, 5, 8, 7, 9, 11, 13, 14, 15, 6, 7, 9, 8,
   7, 6, 8, 13, 11, 9, 7, 15, 7, 12, 15, 9, 11, 7, 13, 12,
   11, 13, 6, 7, 14, 9, 13, 15, 14, 8, 13, 6, 5, 12, 7, 5,
   11, 12, 14, 15, 14, 15, 9, 8, 9, 14, 5, 6, 8, 6, 5, 12]
/-- ripemd/sbox.go:104-109 -/
def sbox256n1 : List Nat :=
  [5, 14, 7, 0, 9, 2, 11, 4, 13, 6, 15, 8, 1, 10, 3, 12,
   6, 11, 3, 7, 0, 13, 5, 10, 14, 15, 8, 12, 4, 9, 1, 2,
   15, 5, 1, 3, 7, 14, 6, 9, 11, 8, 12, 2, 10, 0, 4, 13,
   8, 6, 4, 1, 3, 11, 15, 0, 5, 12, 2, 13, 9, 7, 10, 14]
/-- ripemd/sbox.go:111-116 -/
def sbox256r1 : List Nat :=
  [8, 9, 9, 11, 13, 15, 15, 5, 7, 7, 8, 11, 14, 14, 12, 6,
   9, 13, 15, 7, 12, 8, 9, 11, 7, 7, 12, 7, 6, 15, 13, 11,
   9, 7, 15, 11, 8, 6, 6, 14, 12, 13, 5, 14, 13, 13, 7, 5,
   15, 5, 8, 11, 14, 14, 6, 14, 6, 9, 12, 9, 12, 5, 15, 8]
/-- ripemd/sbox.go:121-127 -/
def sbox320n0 : List Nat :=
  [0, 1, 2, 3, 4, 5, 6, 7, 8, 9, 10, 11, 12, 13, 14, 15,
   7, 4, 13, 1, 10, 6, 15, 3, 12, 0, 9, 5, 2, 14, 11, 8,
   3, 10, 14, 4, 9, 15, 8, 1, 2, 7, 0, 6, 13, 11, 5, 12,
   1, 9, 11, 10, 0, 8, 12, 4, 13, 3, 7, 15, 14, 5, 6, 2,
   4, 0, 5, 9, 7, 12, 2, 10, 14, 1, 3, 8, 11, 6, 15, 13]
/-- ripemd/sbox.go:129-135 -/
def sbox320r0 : List Nat :=
  [11, 14, 15, 12, 5, 8, 7, 9, 11, 13, 14, 15, 6, 7, 9, 8,
   7, 6, 8, 13, 11, 9, 7, 15, 7, 12, 15, 9, 11, 7, 13, 12,
   11, 13, 6, 7, 14, 9, 13, 15, 14, 8, 13, 6, 5, 12, 7, 5,
   11, 12, 14, 15, 14, 15, 9, 8, 9, 14, 5, 6, 8, 6, 5, 12,
   9, 15, 5, 11, 6, 8, 13, 12, 5, 12, 13, 14, 11, 8, 5, 6]
/-- ripemd/sbox.go:138-144 -/
def sbox320n1 : List Nat :=
  [5, 14, 7, 0, 9, 2, 11, 4, 13, 6, 15, 8, 1, 10, 3, 12,
   6, 11, 3, 7, 0, 13, 5, 10, 14, 15, 8, 12, 4, 9, 1, 2,
   15, 5, 1, 3, 7, 14, 6, 9, 11, 8, 12, 2, 10, 0, 4, 13,
   8, 6, 4, 1, 3, 11, 15, 0, 5, 12, 2, 13, 9, 7, 10, 14,
   12, 15, 10, 4, 1, 5, 8, 7, 6, 2, 13, 14, 0, 3, 9, 11]
/-- ripemd/sbox.go:146-152 -/
def sbox320r1 : List Nat :=
  [8, 9, 9, 11, 13, 15, 15, 5, 7, 7, 8, 11, 14, 14, 12, 6,
   9, 13, 15, 7, 12, 8, 9, 11, 7, 7, 12, 7, 6, 15, 13, 11,
   9, 7, 15, 11, 8, 6, 6, 14, 12, 13, 5, 14, 13, 13, 7, 5,
   15, 5, 8, 11, 14, 14, 6, 14, 6, 9, 12, 9, 12, 5, 15, 8,
   8, 5, 12, 9, 12, 5, 14, 6, 8, 13, 6, 5, 15, 13, 11, 11]

/-- The variables `a, b, c, d` (or `aa, bb, cc, dd`) of digest128.go and digest256.go. -/
structure V4 where
  (a b c d : U32)
  deriving DecidableEq
/-- The variables `a, b, c, d, e` (or `aa, .., ee`) of digest160.go and digest320.go. -/
structure V5 where
  (a b c d e : U32)
  deriving DecidableEq

/-- The load loop, ripemd/digest160.go:123-127 and the same in the other three files. -/
def loadX (p : Bytes) : List U32 := (List.range 16).map fun i => getLE32 p (4 * i)

/-- The four statements of a line, e.g. ripemd/digest128.go:132-135:
`alpha = a + (f) + x[n] + k; alpha = RotateLeft32(alpha, s); a, b, c, d = d, alpha, b, c`.
Where the code adds no constant, `k` is 0. -/
def line4 (f : U32) (k xn : U32) (s : Nat) (v : V4) : V4 :=
  let alpha := v.a + f + xn + k
  let alpha := alpha.rotateLeft s
  ⟨v.d, alpha, v.b, v.c⟩

/-- The five statements of a line, e.g. ripemd/digest160.go:131-135. -/
def line5 (f : U32) (k xn : U32) (s : Nat) (v : V5) : V5 :=
  let alpha := v.a + f + xn + k
  let alpha := alpha.rotateLeft s + v.e
  let beta := v.c.rotateLeft 10
  ⟨v.e, alpha, v.b, beta, v.d⟩

/-- ripemd/digest128.go:131-144, round 1. -/
def round128_0 (x : List U32) (st : V4 × V4) : V4 × V4 :=
  forLoop 0 16 (fun (st : V4 × V4) i =>
    (line4 (st.1.b ^^^ st.1.c ^^^ st.1.d) 0x00000000#32 (x.getD (sbox128n0.getD i 0) 0) (sbox128r0.getD i 0) st.1,
     line4 (st.2.c ^^^ (st.2.d &&& (st.2.b ^^^ st.2.c))) 0x50a28be6#32 (x.getD (sbox128n1.getD i 0) 0) (sbox128r1.getD i 0) st.2)) st
/-- ripemd/digest128.go:147-160, round 2. -/
def round128_1 (x : List U32) (st : V4 × V4) : V4 × V4 :=
  forLoop 16 32 (fun (st : V4 × V4) i =>
    (line4 (st.1.d ^^^ (st.1.b &&& (st.1.c ^^^ st.1.d))) 0x5a827999#32 (x.getD (sbox128n0.getD i 0) 0) (sbox128r0.getD i 0) st.1,
     line4 (st.2.d ^^^ (st.2.b ||| ~~~st.2.c)) 0x5c4dd124#32 (x.getD (sbox128n1.getD i 0) 0) (sbox128r1.getD i 0) st.2)) st
/-- ripemd/digest128.go:163-176, round 3. -/
def round128_2 (x : List U32) (st : V4 × V4) : V4 × V4 :=
  forLoop 32 48 (fun (st : V4 × V4) i =>
    (line4 (st.1.d ^^^ (st.1.b ||| ~~~st.1.c)) 0x6ed9eba1#32 (x.getD (sbox128n0.getD i 0) 0) (sbox128r0.getD i 0) st.1,
     line4 (st.2.d ^^^ (st.2.b &&& (st.2.c ^^^ st.2.d))) 0x6d703ef3#32 (x.getD (sbox128n1.getD i 0) 0) (sbox128r1.getD i 0) st.2)) st
/-- ripemd/digest128.go:179-192, round 4. -/
def round128_3 (x : List U32) (st : V4 × V4) : V4 × V4 :=
  forLoop 48 64 (fun (st : V4 × V4) i =>
    (line4 (st.1.c ^^^ (st.1.d &&& (st.1.b ^^^ st.1.c))) 0x8f1bbcdc#32 (x.getD (sbox128n0.getD i 0) 0) (sbox128r0.getD i 0) st.1,
     line4 (st.2.b ^^^ st.2.c ^^^ st.2.d) 0x00000000#32 (x.getD (sbox128n1.getD i 0) 0) (sbox128r1.getD i 0) st.2)) st
/-- ripemd/digest128.go:113-206 `block`, for one block: the new `md.s`. -/
def block128 (s : List U32) (p : Bytes) : List U32 :=
  let x := loadX p
  let st : V4 × V4 := (⟨s.getD 0 0, s.getD 1 0, s.getD 2 0, s.getD 3 0⟩, ⟨s.getD 0 0, s.getD 1 0, s.getD 2 0, s.getD 3 0⟩)
  let st := round128_0 x st
  let st := round128_1 x st
  let st := round128_2 x st
  let st := round128_3 x st
  [s.getD 1 0 + st.1.c + st.2.d, s.getD 2 0 + st.1.d + st.2.a, s.getD 3 0 + st.1.a + st.2.b,
   s.getD 0 0 + st.1.b + st.2.c]

/-- ripemd/digest160.go:130-145, round 1. -/
def round160_0 (x : List U32) (st : V5 × V5) : V5 × V5 :=
  forLoop 0 16 (fun (st : V5 × V5) i =>
    (line5 (st.1.b ^^^ st.1.c ^^^ st.1.d) 0x00000000#32 (x.getD (sbox160n0.getD i 0) 0) (sbox160r0.getD i 0) st.1,
     line5 (st.2.b ^^^ (st.2.c ||| ~~~st.2.d)) 0x50a28be6#32 (x.getD (sbox160n1.getD i 0) 0) (sbox160r1.getD i 0) st.2)) st
/-- ripemd/digest160.go:148-163, round 2. -/
def round160_1 (x : List U32) (st : V5 × V5) : V5 × V5 :=
  forLoop 16 32 (fun (st : V5 × V5) i =>
    (line5 ((st.1.b &&& st.1.c) ||| (~~~st.1.b &&& st.1.d)) 0x5a827999#32 (x.getD (sbox160n0.getD i 0) 0) (sbox160r0.getD i 0) st.1,
     line5 ((st.2.b &&& st.2.d) ||| (st.2.c &&& ~~~st.2.d)) 0x5c4dd124#32 (x.getD (sbox160n1.getD i 0) 0) (sbox160r1.getD i 0) st.2)) st
/-- ripemd/digest160.go:166-181, round 3. -/
def round160_2 (x : List U32) (st : V5 × V5) : V5 × V5 :=
  forLoop 32 48 (fun (st : V5 × V5) i =>
    (line5 ((st.1.b ||| ~~~st.1.c) ^^^ st.1.d) 0x6ed9eba1#32 (x.getD (sbox160n0.getD i 0) 0) (sbox160r0.getD i 0) st.1,
     line5 ((st.2.b ||| ~~~st.2.c) ^^^ st.2.d) 0x6d703ef3#32 (x.getD (sbox160n1.getD i 0) 0) (sbox160r1.getD i 0) st.2)) st
/-- ripemd/digest160.go:184-199, round 4. -/
def round160_3 (x : List U32) (st : V5 × V5) : V5 × V5 :=
  forLoop 48 64 (fun (st : V5 × V5) i =>
    (line5 ((st.1.b &&& st.1.d) ||| (st.1.c &&& ~~~st.1.d)) 0x8f1bbcdc#32 (x.getD (sbox160n0.getD i 0) 0) (sbox160r0.getD i 0) st.1,
     line5 ((st.2.b &&& st.2.c) ||| (~~~st.2.b &&& st.2.d)) 0x7a6d76e9#32 (x.getD (sbox160n1.getD i 0) 0) (sbox160r1.getD i 0) st.2)) st
/-- ripemd/digest160.go:202-217, round 5. -/
def round160_4 (x : List U32) (st : V5 × V5) : V5 × V5 :=
  forLoop 64 80 (fun (st : V5 × V5) i =>
    (line5 (st.1.b ^^^ (st.1.c ||| ~~~st.1.d)) 0xa953fd4e#32 (x.getD (sbox160n0.getD i 0) 0) (sbox160r0.getD i 0) st.1,
     line5 (st.2.b ^^^ st.2.c ^^^ st.2.d) 0x00000000#32 (x.getD (sbox160n1.getD i 0) 0) (sbox160r1.getD i 0) st.2)) st
/-- ripemd/digest160.go:115-232 `block`, for one block: the new `md.s`. -/
def block160 (s : List U32) (p : Bytes) : List U32 :=
  let x := loadX p
  let st : V5 × V5 := (⟨s.getD 0 0, s.getD 1 0, s.getD 2 0, s.getD 3 0, s.getD 4 0⟩, ⟨s.getD 0 0, s.getD 1 0, s.getD 2 0, s.getD 3 0, s.getD 4 0⟩)
  let st := round160_0 x st
  let st := round160_1 x st
  let st := round160_2 x st
  let st := round160_3 x st
  let st := round160_4 x st
  [st.2.d + (st.1.c + s.getD 1 0), s.getD 2 0 + st.1.d + st.2.e, s.getD 3 0 + st.1.e + st.2.a,
   s.getD 4 0 + st.1.a + st.2.b, s.getD 0 0 + st.1.b + st.2.c]

/-- ripemd/digest256.go:130-143, round 1. -/
def round256_0 (x : List U32) (st : V4 × V4) : V4 × V4 :=
  forLoop 0 16 (fun (st : V4 × V4) i =>
    (line4 (st.1.b ^^^ st.1.c ^^^ st.1.d) 0x00000000#32 (x.getD (sbox256n0.getD i 0) 0) (sbox256r0.getD i 0) st.1,
     line4 (st.2.c ^^^ (st.2.d &&& (st.2.b ^^^ st.2.c))) 0x50a28be6#32 (x.getD (sbox256n1.getD i 0) 0) (sbox256r1.getD i 0) st.2)) st
/-- ripemd/digest256.go:150-163, round 2. -/
def round256_1 (x : List U32) (st : V4 × V4) : V4 × V4 :=
  forLoop 16 32 (fun (st : V4 × V4) i =>
    (line4 (st.1.d ^^^ (st.1.b &&& (st.1.c ^^^ st.1.d))) 0x5a827999#32 (x.getD (sbox256n0.getD i 0) 0) (sbox256r0.getD i 0) st.1,
     line4 (st.2.d ^^^ (st.2.b ||| ~~~st.2.c)) 0x5c4dd124#32 (x.getD (sbox256n1.getD i 0) 0) (sbox256r1.getD i 0) st.2)) st
/-- ripemd/digest256.go:170-183, round 3. -/
def round256_2 (x : List U32) (st : V4 × V4) : V4 × V4 :=
  forLoop 32 48 (fun (st : V4 × V4) i =>
    (line4 (st.1.d ^^^ (st.1.b ||| ~~~st.1.c)) 0x6ed9eba1#32 (x.getD (sbox256n0.getD i 0) 0) (sbox256r0.getD i 0) st.1,
     line4 (st.2.d ^^^ (st.2.b &&& (st.2.c ^^^ st.2.d))) 0x6d703ef3#32 (x.getD (sbox256n1.getD i 0) 0) (sbox256r1.getD i 0) st.2)) st
/-- ripemd/digest256.go:190-203, round 4. -/
def round256_3 (x : List U32) (st : V4 × V4) : V4 × V4 :=
  forLoop 48 64 (fun (st : V4 × V4) i =>
    (line4 (st.1.c ^^^ (st.1.d &&& (st.1.b ^^^ st.1.c))) 0x8f1bbcdc#32 (x.getD (sbox256n0.getD i 0) 0) (sbox256r0.getD i 0) st.1,
     line4 (st.2.b ^^^ st.2.c ^^^ st.2.d) 0x00000000#32 (x.getD (sbox256n1.getD i 0) 0) (sbox256r1.getD i 0) st.2)) st
/-- ripemd/digest256.go:115-224 `block`, for one block: the new `md.s`. -/
def block256 (s : List U32) (p : Bytes) : List U32 :=
  let x := loadX p
  let st : V4 × V4 := (⟨s.getD 0 0, s.getD 1 0, s.getD 2 0, s.getD 3 0⟩, ⟨s.getD 4 0, s.getD 5 0, s.getD 6 0, s.getD 7 0⟩)
  let st := round256_0 x st
  let st : V4 × V4 := ({ st.1 with a := st.2.a }, { st.2 with a := st.1.a })
  let st := round256_1 x st
  let st : V4 × V4 := ({ st.1 with b := st.2.b }, { st.2 with b := st.1.b })
  let st := round256_2 x st
  let st : V4 × V4 := ({ st.1 with c := st.2.c }, { st.2 with c := st.1.c })
  let st := round256_3 x st
  let st : V4 × V4 := ({ st.1 with d := st.2.d }, { st.2 with d := st.1.d })
  [s.getD 0 0 + st.1.a, s.getD 1 0 + st.1.b, s.getD 2 0 + st.1.c, s.getD 3 0 + st.1.d,
   s.getD 4 0 + st.2.a, s.getD 5 0 + st.2.b, s.getD 6 0 + st.2.c, s.getD 7 0 + st.2.d]

/-- ripemd/digest320.go:125-140, round 1. -/
def round320_0 (x : List U32) (st : V5 × V5) : V5 × V5 :=
  forLoop 0 16 (fun (st : V5 × V5) i =>
    (line5 (st.1.b ^^^ st.1.c ^^^ st.1.d) 0x00000000#32 (x.getD (sbox320n0.getD i 0) 0) (sbox320r0.getD i 0) st.1,
     line5 (st.2.b ^^^ (st.2.c ||| ~~~st.2.d)) 0x50a28be6#32 (x.getD (sbox320n1.getD i 0) 0) (sbox320r1.getD i 0) st.2)) st
/-- ripemd/digest320.go:147-162, round 2. -/
def round320_1 (x : List U32) (st : V5 × V5) : V5 × V5 :=
  forLoop 16 32 (fun (st : V5 × V5) i =>
    (line5 (st.1.d ^^^ (st.1.b &&& (st.1.c ^^^ st.1.d))) 0x5a827999#32 (x.getD (sbox320n0.getD i 0) 0) (sbox320r0.getD i 0) st.1,
     line5 (st.2.c ^^^ (st.2.d &&& (st.2.b ^^^ st.2.c))) 0x5c4dd124#32 (x.getD (sbox320n1.getD i 0) 0) (sbox320r1.getD i 0) st.2)) st
/-- ripemd/digest320.go:169-184, round 3. -/
def round320_2 (x : List U32) (st : V5 × V5) : V5 × V5 :=
  forLoop 32 48 (fun (st : V5 × V5) i =>
    (line5 (st.1.d ^^^ (st.1.b ||| ~~~st.1.c)) 0x6ed9eba1#32 (x.getD (sbox320n0.getD i 0) 0) (sbox320r0.getD i 0) st.1,
     line5 (st.2.d ^^^ (st.2.b ||| ~~~st.2.c)) 0x6d703ef3#32 (x.getD (sbox320n1.getD i 0) 0) (sbox320r1.getD i 0) st.2)) st
/-- ripemd/digest320.go:191-206, round 4. -/
def round320_3 (x : List U32) (st : V5 × V5) : V5 × V5 :=
  forLoop 48 64 (fun (st : V5 × V5) i =>
    (line5 (st.1.c ^^^ (st.1.d &&& (st.1.b ^^^ st.1.c))) 0x8f1bbcdc#32 (x.getD (sbox320n0.getD i 0) 0) (sbox320r0.getD i 0) st.1,
     line5 (st.2.d ^^^ (st.2.b &&& (st.2.c ^^^ st.2.d))) 0x7a6d76e9#32 (x.getD (sbox320n1.getD i 0) 0) (sbox320r1.getD i 0) st.2)) st
/-- ripemd/digest320.go:213-228, round 5. -/
def round320_4 (x : List U32) (st : V5 × V5) : V5 × V5 :=
  forLoop 64 80 (fun (st : V5 × V5) i =>
    (line5 (st.1.b ^^^ (st.1.c ||| ~~~st.1.d)) 0xa953fd4e#32 (x.getD (sbox320n0.getD i 0) 0) (sbox320r0.getD i 0) st.1,
     line5 (st.2.b ^^^ st.2.c ^^^ st.2.d) 0x00000000#32 (x.getD (sbox320n1.getD i 0) 0) (sbox320r1.getD i 0) st.2)) st
/-- ripemd/digest320.go:110-250 `block`, for one block: the new `md.s`. -/
def block320 (s : List U32) (p : Bytes) : List U32 :=
  let x := loadX p
  let st : V5 × V5 := (⟨s.getD 0 0, s.getD 1 0, s.getD 2 0, s.getD 3 0, s.getD 4 0⟩, ⟨s.getD 5 0, s.getD 6 0, s.getD 7 0, s.getD 8 0, s.getD 9 0⟩)
  let st := round320_0 x st
  let st : V5 × V5 := ({ st.1 with b := st.2.b }, { st.2 with b := st.1.b })
  let st := round320_1 x st
  let st : V5 × V5 := ({ st.1 with d := st.2.d }, { st.2 with d := st.1.d })
  let st := round320_2 x st
  let st : V5 × V5 := ({ st.1 with a := st.2.a }, { st.2 with a := st.1.a })
  let st := round320_3 x st
  let st : V5 × V5 := ({ st.1 with c := st.2.c }, { st.2 with c := st.1.c })
  let st := round320_4 x st
  let st : V5 × V5 := ({ st.1 with e := st.2.e }, { st.2 with e := st.1.e })
  [s.getD 0 0 + st.1.a, s.getD 1 0 + st.1.b, s.getD 2 0 + st.1.c, s.getD 3 0 + st.1.d, s.getD 4 0 + st.1.e,
   s.getD 5 0 + st.2.a, s.getD 6 0 + st.2.b, s.getD 7 0 + st.2.c, s.getD 8 0 + st.2.d, s.getD 9 0 + st.2.e]

/-- ripemd/sbox.go:4-16 -/
def s0 : U32 := 0x67452301#32
/-- ripemd/sbox.go:4-16 -/
def s1 : U32 := 0xefcdab89#32
/-- ripemd/sbox.go:4-16 -/
def s2 : U32 := 0x98badcfe#32
/-- ripemd/sbox.go:4-16 -/
def s3 : U32 := 0x10325476#32
/-- ripemd/sbox.go:4-16 -/
def s4 : U32 := 0xc3d2e1f0#32
/-- ripemd/sbox.go:4-16 -/
def s5 : U32 := 0x76543210#32
/-- ripemd/sbox.go:4-16 -/
def s6 : U32 := 0xFEDCBA98#32
/-- ripemd/sbox.go:4-16 -/
def s7 : U32 := 0x89ABCDEF#32
/-- ripemd/sbox.go:4-16 -/
def s8 : U32 := 0x01234567#32
/-- ripemd/sbox.go:4-16 -/
def s9 : U32 := 0x3C2D1E0F#32

/-- ripemd/digest128.go:15-20 and the same in the other files. -/
abbrev Digest := BufDigest (List U32)

/-- ripemd/digest160.go:45-73 `Write` and the same in the other files, `block` being the block
function of the file. -/
def write (block : List U32 → Bytes → List U32) (d : Digest) (p : Bytes) : Digest :=
  d.absorbX 64 block p

/-- ripemd/digest160.go:82-113 `checkSum` and the same in the other files; `none` is its panic. -/
def checkSum (block : List U32 → Bytes → List U32) (d : Digest) : Option Bytes :=
  let tc := d.len
  let tmp := 0x80#8 :: zeros 63
  let d := write block d (tmp.take (if tc.toNat % 64 < 56 then 56 - tc.toNat % 64
    else 64 + 56 - tc.toNat % 64))
  let tc := tc <<< 3
  -- lines 94-98: `tmp[i] = byte(tc >> (8 * i))`
  let d := write block d (le64 tc)
  if d.nx ≠ 0 then none else some ((d.s.map le32).flatten)

/-- `Reset` of ripemd/digest128.go (the buffer bytes stay). -/
def reset128 (d : Digest) : Digest := { d with s := [s0, s1, s2, s3], nx := 0, len := 0 }
/-- `newDigest128` of ripemd/digest128.go. -/
def new128 : Digest := reset128 { s := List.replicate 4 0, x := zeros 64, nx := 0, len := 0 }
/-- The methods of ripemd/digest128.go (`Sum` works on a copy). -/
def impl128 : HashImpl Digest where
  write d p := some (write block128 d p, p.length)
  sum d b := (checkSum block128 d).map fun h => (d, b ++ h)
  reset := reset128
  size _ := 16
  blockSize _ := 64

/-- `Reset` of ripemd/digest160.go (the buffer bytes stay). -/
def reset160 (d : Digest) : Digest := { d with s := [s0, s1, s2, s3, s4], nx := 0, len := 0 }
/-- `newDigest160` of ripemd/digest160.go. -/
def new160 : Digest := reset160 { s := List.replicate 5 0, x := zeros 64, nx := 0, len := 0 }
/-- The methods of ripemd/digest160.go (`Sum` works on a copy). -/
def impl160 : HashImpl Digest where
  write d p := some (write block160 d p, p.length)
  sum d b := (checkSum block160 d).map fun h => (d, b ++ h)
  reset := reset160
  size _ := 20
  blockSize _ := 64

/-- `Reset` of ripemd/digest256.go (the buffer bytes stay). -/
def reset256 (d : Digest) : Digest := { d with s := [s0, s1, s2, s3, s5, s6, s7, s8], nx := 0, len := 0 }
/-- `newDigest256` of ripemd/digest256.go. -/
def new256 : Digest := reset256 { s := List.replicate 8 0, x := zeros 64, nx := 0, len := 0 }
/-- The methods of ripemd/digest256.go (`Sum` works on a copy). -/
def impl256 : HashImpl Digest where
  write d p := some (write block256 d p, p.length)
  sum d b := (checkSum block256 d).map fun h => (d, b ++ h)
  reset := reset256
  size _ := 32
  blockSize _ := 64

/-- `Reset` of ripemd/digest320.go (the buffer bytes stay). -/
def reset320 (d : Digest) : Digest := { d with s := [s0, s1, s2, s3, s4, s5, s6, s7, s8, s9], nx := 0, len := 0 }
/-- `newDigest320` of ripemd/digest320.go. -/
def new320 : Digest := reset320 { s := List.replicate 10 0, x := zeros 64, nx := 0, len := 0 }
/-- The methods of ripemd/digest320.go (`Sum` works on a copy). -/
def impl320 : HashImpl Digest where
  write d p := some (write block320 d p, p.length)
  sum d b := (checkSum block320 d).map fun h => (d, b ++ h)
  reset := reset320
  size _ := 40
  blockSize _ := 64

end Verif.RIPEMD
