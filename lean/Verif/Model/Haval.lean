import Verif.HashAPI
import Verif.LoopBuf
/-
Package haval (haval/digest.go, utils.go, sbox.go).  Generated in part from the Go text (the lines of the passes and the tables).
-/
namespace Verif.Haval

/-- sbox.go:3-12 -/
def iv : List U32 :=
  [0x243f6a88, 0x85a308d3, 0x13198a2e, 0x03707344, 0xa4093822, 0x299f31d0, 0x082efa98, 0xec4e6c89]
/-- sbox.go:14-23 -/
def K2 : List U32 :=
  [0x452821e6, 0x38d01377, 0xbe5466cf, 0x34e90c6c, 0xc0ac29b7, 0xc97c50dd, 0x3f84d5b5, 0xb5470917,
  0x9216d5d9, 0x8979fb1b, 0xd1310ba6, 0x98dfb5ac, 0x2ffd72db, 0xd01adfb7, 0xb8e1afed, 0x6a267e96,
  0xba7c9045, 0xf12c7f99, 0x24a19947, 0xb3916cf7, 0x0801f2e2, 0x858efc16, 0x636920d8, 0x71574e69,
  0xa458fea3, 0xf4933d7e, 0x0d95748f, 0x728eb658, 0x718bcd58, 0x82154aee, 0x7b54a41d, 0xc25a59b5]
/-- sbox.go:25-34 -/
def K3 : List U32 :=
  [0x9c30d539, 0x2af26013, 0xc5d1b023, 0x286085f0, 0xca417918, 0xb8db38ef, 0x8e79dcb0, 0x603a180e,
  0x6c9e0e8b, 0xb01e8a3e, 0xd71577c1, 0xbd314b27, 0x78af2fda, 0x55605c60, 0xe65525f3, 0xaa55ab94,
  0x57489862, 0x63e81440, 0x55ca396a, 0x2aab10b6, 0xb4cc5c34, 0x1141e8ce, 0xa15486af, 0x7c72e993,
  0xb3ee1411, 0x636fbc2a, 0x2ba9c55d, 0x741831f6, 0xce5c3e16, 0x9b87931e, 0xafd6ba33, 0x6c24cf5c]
/-- sbox.go:36-45 -/
def K4 : List U32 :=
  [0x7a325381, 0x28958677, 0x3b8f4898, 0x6b4bb9af, 0xc4bfe81b, 0x66282193, 0x61d809cc, 0xfb21a991,
  0x487cac60, 0x5dec8032, 0xef845d5d, 0xe98575b1, 0xdc262302, 0xeb651b88, 0x23893e81, 0xd396acc5,
  0x0f6d6ff3, 0x83f44239, 0x2e0b4482, 0xa4842004, 0x69c8f04a, 0x9e1f9b5e, 0x21c66842, 0xf6e96c9a,
  0x670c9c61, 0xabd388f0, 0x6a51a0d2, 0xd8542f68, 0x960fa728, 0xab5133a3, 0x6eef0b6c, 0x137a3be4]
/-- sbox.go:47-56 -/
def K5 : List U32 :=
  [0xba3bf050, 0x7efb2a98, 0xa1f1651d, 0x39af0176, 0x66ca593e, 0x82430e88, 0x8cee8619, 0x456f9fb4,
  0x7d84a5c3, 0x3b8b5ebe, 0xe06f75d8, 0x85c12073, 0x401a449f, 0x56c16aa6, 0x4ed3aa62, 0x363f7706,
  0x1bfedf72, 0x429b023d, 0x37d0d724, 0xd00a1248, 0xdb0fead3, 0x49f1c09b, 0x075372c9, 0x80991b7b,
  0x25d479d8, 0xf6e8def7, 0xe3fe501a, 0xb6794c3b, 0x976ce0bd, 0x04c006ba, 0xc1a94fb6, 0x409f60c4]
/-- sbox.go:58-61 -/
def wp2 : List Nat :=
  [5, 14, 26, 18, 11, 28, 7, 16, 0, 23, 20, 22, 1, 10, 4, 8,
  30, 3, 21, 9, 17, 24, 29, 6, 19, 12, 15, 13, 2, 25, 31, 27]
/-- sbox.go:63-66 -/
def wp3 : List Nat :=
  [19, 9, 4, 20, 28, 17, 8, 22, 29, 14, 25, 12, 24, 30, 16, 26,
  31, 15, 7, 3, 1, 0, 18, 27, 13, 6, 21, 10, 23, 11, 5, 2]
/-- sbox.go:68-71 -/
def wp4 : List Nat :=
  [24, 4, 0, 14, 2, 7, 28, 23, 26, 6, 30, 20, 18, 25, 19, 3,
  22, 11, 31, 21, 8, 27, 12, 9, 1, 29, 5, 15, 17, 10, 16, 13]
/-- sbox.go:73-76 -/
def wp5 : List Nat :=
  [27, 3, 21, 26, 17, 11, 20, 29, 19, 0, 12, 7, 13, 8, 31, 10,
  5, 9, 14, 30, 18, 6, 28, 24, 2, 23, 16, 22, 4, 1, 25, 15]

/-- utils.go:56-58 -/
def F1 (x6 x5 x4 x3 x2 x1 x0 : U32) : U32 := (x1 &&& x4) ^^^ (x2 &&& x5) ^^^ (x3 &&& x6) ^^^ (x0 &&& x1) ^^^ x0
/-- utils.go:60-63 -/
def F2 (x6 x5 x4 x3 x2 x1 x0 : U32) : U32 := (x2 &&& ((x1 &&& ~~~x3) ^^^ (x4 &&& x5) ^^^ x6 ^^^ x0)) ^^^ (x4 &&& (x1 ^^^ x5)) ^^^ ((x3 &&& x5) ^^^ x0)
/-- utils.go:65-68 -/
def F3 (x6 x5 x4 x3 x2 x1 x0 : U32) : U32 := (x3 &&& ((x1 &&& x2) ^^^ x6 ^^^ x0)) ^^^ (x1 &&& x4) ^^^ (x2 &&& x5) ^^^ x0
/-- utils.go:70-73 -/
def F4 (x6 x5 x4 x3 x2 x1 x0 : U32) : U32 := (x3 &&& ((x1 &&& x2) ^^^ (x4 ||| x6) ^^^ x5)) ^^^ (x4 &&& ((~~~x2 &&& x5) ^^^ x1 ^^^ x6 ^^^ x0)) ^^^ (x2 &&& x6) ^^^ x0
/-- utils.go:75-78 -/
def F5 (x6 x5 x4 x3 x2 x1 x0 : U32) : U32 := (x0 &&& ~~~((x1 &&& x2 &&& x3) ^^^ x5)) ^^^ (x1 &&& x4) ^^^ (x2 &&& x5) ^^^ (x3 &&& x6)

/-- The local variables x0 … x7 of a pass, and the fields s0 … s7 of the digest. -/
structure S8 where
  x0 : U32
  x1 : U32
  x2 : U32
  x3 : U32
  x4 : U32
  x5 : U32
  x6 : U32
  x7 : U32

/-- utils.go:48-50 -/
def circularLeft (x : U32) (n : Nat) : U32 := x.rotateLeft n

/-- digest.go:202 -/
def p31_0 (w : U32) (s : S8) : S8 := { s with x7 := circularLeft (F1 s.x1 s.x0 s.x3 s.x5 s.x6 s.x2 s.x4) 25 + circularLeft s.x7 21 + w }
/-- digest.go:203 -/
def p31_1 (w : U32) (s : S8) : S8 := { s with x6 := circularLeft (F1 s.x0 s.x7 s.x2 s.x4 s.x5 s.x1 s.x3) 25 + circularLeft s.x6 21 + w }
/-- digest.go:204 -/
def p31_2 (w : U32) (s : S8) : S8 := { s with x5 := circularLeft (F1 s.x7 s.x6 s.x1 s.x3 s.x4 s.x0 s.x2) 25 + circularLeft s.x5 21 + w }
/-- digest.go:205 -/
def p31_3 (w : U32) (s : S8) : S8 := { s with x4 := circularLeft (F1 s.x6 s.x5 s.x0 s.x2 s.x3 s.x7 s.x1) 25 + circularLeft s.x4 21 + w }
/-- digest.go:206 -/
def p31_4 (w : U32) (s : S8) : S8 := { s with x3 := circularLeft (F1 s.x5 s.x4 s.x7 s.x1 s.x2 s.x6 s.x0) 25 + circularLeft s.x3 21 + w }
/-- digest.go:207 -/
def p31_5 (w : U32) (s : S8) : S8 := { s with x2 := circularLeft (F1 s.x4 s.x3 s.x6 s.x0 s.x1 s.x5 s.x7) 25 + circularLeft s.x2 21 + w }
/-- digest.go:208 -/
def p31_6 (w : U32) (s : S8) : S8 := { s with x1 := circularLeft (F1 s.x3 s.x2 s.x5 s.x7 s.x0 s.x4 s.x6) 25 + circularLeft s.x1 21 + w }
/-- digest.go:209 -/
def p31_7 (w : U32) (s : S8) : S8 := { s with x0 := circularLeft (F1 s.x2 s.x1 s.x4 s.x6 s.x7 s.x3 s.x5) 25 + circularLeft s.x0 21 + w }
/-- digest.go:191-214 -/
def pass31 (inw : List U32) (s : S8) : S8 :=
  [0, 8, 16, 24].foldl (fun s i =>
    let s := p31_0 (inw.getD (i + 0) 0) s
    let s := p31_1 (inw.getD (i + 1) 0) s
    let s := p31_2 (inw.getD (i + 2) 0) s
    let s := p31_3 (inw.getD (i + 3) 0) s
    let s := p31_4 (inw.getD (i + 4) 0) s
    let s := p31_5 (inw.getD (i + 5) 0) s
    let s := p31_6 (inw.getD (i + 6) 0) s
    let s := p31_7 (inw.getD (i + 7) 0) s
    s) s

/-- digest.go:227 -/
def p32_0 (w k : U32) (s : S8) : S8 := { s with x7 := circularLeft (F2 s.x4 s.x2 s.x1 s.x0 s.x5 s.x3 s.x6) 25 + circularLeft s.x7 21 + w + k }
/-- digest.go:228 -/
def p32_1 (w k : U32) (s : S8) : S8 := { s with x6 := circularLeft (F2 s.x3 s.x1 s.x0 s.x7 s.x4 s.x2 s.x5) 25 + circularLeft s.x6 21 + w + k }
/-- digest.go:229 -/
def p32_2 (w k : U32) (s : S8) : S8 := { s with x5 := circularLeft (F2 s.x2 s.x0 s.x7 s.x6 s.x3 s.x1 s.x4) 25 + circularLeft s.x5 21 + w + k }
/-- digest.go:230 -/
def p32_3 (w k : U32) (s : S8) : S8 := { s with x4 := circularLeft (F2 s.x1 s.x7 s.x6 s.x5 s.x2 s.x0 s.x3) 25 + circularLeft s.x4 21 + w + k }
/-- digest.go:231 -/
def p32_4 (w k : U32) (s : S8) : S8 := { s with x3 := circularLeft (F2 s.x0 s.x6 s.x5 s.x4 s.x1 s.x7 s.x2) 25 + circularLeft s.x3 21 + w + k }
/-- digest.go:232 -/
def p32_5 (w k : U32) (s : S8) : S8 := { s with x2 := circularLeft (F2 s.x7 s.x5 s.x4 s.x3 s.x0 s.x6 s.x1) 25 + circularLeft s.x2 21 + w + k }
/-- digest.go:233 -/
def p32_6 (w k : U32) (s : S8) : S8 := { s with x1 := circularLeft (F2 s.x6 s.x4 s.x3 s.x2 s.x7 s.x5 s.x0) 25 + circularLeft s.x1 21 + w + k }
/-- digest.go:234 -/
def p32_7 (w k : U32) (s : S8) : S8 := { s with x0 := circularLeft (F2 s.x5 s.x3 s.x2 s.x1 s.x6 s.x4 s.x7) 25 + circularLeft s.x0 21 + w + k }
/-- digest.go:216-239 -/
def pass32 (inw : List U32) (s : S8) : S8 :=
  [0, 8, 16, 24].foldl (fun s i =>
    let s := p32_0 (inw.getD (wp2.getD (i + 0) 0) 0) (K2.getD (i + 0) 0) s
    let s := p32_1 (inw.getD (wp2.getD (i + 1) 0) 0) (K2.getD (i + 1) 0) s
    let s := p32_2 (inw.getD (wp2.getD (i + 2) 0) 0) (K2.getD (i + 2) 0) s
    let s := p32_3 (inw.getD (wp2.getD (i + 3) 0) 0) (K2.getD (i + 3) 0) s
    let s := p32_4 (inw.getD (wp2.getD (i + 4) 0) 0) (K2.getD (i + 4) 0) s
    let s := p32_5 (inw.getD (wp2.getD (i + 5) 0) 0) (K2.getD (i + 5) 0) s
    let s := p32_6 (inw.getD (wp2.getD (i + 6) 0) 0) (K2.getD (i + 6) 0) s
    let s := p32_7 (inw.getD (wp2.getD (i + 7) 0) 0) (K2.getD (i + 7) 0) s
    s) s

/-- digest.go:252 -/
def p33_0 (w k : U32) (s : S8) : S8 := { s with x7 := circularLeft (F3 s.x6 s.x1 s.x2 s.x3 s.x4 s.x5 s.x0) 25 + circularLeft s.x7 21 + w + k }
/-- digest.go:253 -/
def p33_1 (w k : U32) (s : S8) : S8 := { s with x6 := circularLeft (F3 s.x5 s.x0 s.x1 s.x2 s.x3 s.x4 s.x7) 25 + circularLeft s.x6 21 + w + k }
/-- digest.go:254 -/
def p33_2 (w k : U32) (s : S8) : S8 := { s with x5 := circularLeft (F3 s.x4 s.x7 s.x0 s.x1 s.x2 s.x3 s.x6) 25 + circularLeft s.x5 21 + w + k }
/-- digest.go:255 -/
def p33_3 (w k : U32) (s : S8) : S8 := { s with x4 := circularLeft (F3 s.x3 s.x6 s.x7 s.x0 s.x1 s.x2 s.x5) 25 + circularLeft s.x4 21 + w + k }
/-- digest.go:256 -/
def p33_4 (w k : U32) (s : S8) : S8 := { s with x3 := circularLeft (F3 s.x2 s.x5 s.x6 s.x7 s.x0 s.x1 s.x4) 25 + circularLeft s.x3 21 + w + k }
/-- digest.go:257 -/
def p33_5 (w k : U32) (s : S8) : S8 := { s with x2 := circularLeft (F3 s.x1 s.x4 s.x5 s.x6 s.x7 s.x0 s.x3) 25 + circularLeft s.x2 21 + w + k }
/-- digest.go:258 -/
def p33_6 (w k : U32) (s : S8) : S8 := { s with x1 := circularLeft (F3 s.x0 s.x3 s.x4 s.x5 s.x6 s.x7 s.x2) 25 + circularLeft s.x1 21 + w + k }
/-- digest.go:259 -/
def p33_7 (w k : U32) (s : S8) : S8 := { s with x0 := circularLeft (F3 s.x7 s.x2 s.x3 s.x4 s.x5 s.x6 s.x1) 25 + circularLeft s.x0 21 + w + k }
/-- digest.go:241-264 -/
def pass33 (inw : List U32) (s : S8) : S8 :=
  [0, 8, 16, 24].foldl (fun s i =>
    let s := p33_0 (inw.getD (wp3.getD (i + 0) 0) 0) (K3.getD (i + 0) 0) s
    let s := p33_1 (inw.getD (wp3.getD (i + 1) 0) 0) (K3.getD (i + 1) 0) s
    let s := p33_2 (inw.getD (wp3.getD (i + 2) 0) 0) (K3.getD (i + 2) 0) s
    let s := p33_3 (inw.getD (wp3.getD (i + 3) 0) 0) (K3.getD (i + 3) 0) s
    let s := p33_4 (inw.getD (wp3.getD (i + 4) 0) 0) (K3.getD (i + 4) 0) s
    let s := p33_5 (inw.getD (wp3.getD (i + 5) 0) 0) (K3.getD (i + 5) 0) s
    let s := p33_6 (inw.getD (wp3.getD (i + 6) 0) 0) (K3.getD (i + 6) 0) s
    let s := p33_7 (inw.getD (wp3.getD (i + 7) 0) 0) (K3.getD (i + 7) 0) s
    s) s

/-- digest.go:277 -/
def p41_0 (w : U32) (s : S8) : S8 := { s with x7 := circularLeft (F1 s.x2 s.x6 s.x1 s.x4 s.x5 s.x3 s.x0) 25 + circularLeft s.x7 21 + w }
/-- digest.go:278 -/
def p41_1 (w : U32) (s : S8) : S8 := { s with x6 := circularLeft (F1 s.x1 s.x5 s.x0 s.x3 s.x4 s.x2 s.x7) 25 + circularLeft s.x6 21 + w }
/-- digest.go:279 -/
def p41_2 (w : U32) (s : S8) : S8 := { s with x5 := circularLeft (F1 s.x0 s.x4 s.x7 s.x2 s.x3 s.x1 s.x6) 25 + circularLeft s.x5 21 + w }
/-- digest.go:280 -/
def p41_3 (w : U32) (s : S8) : S8 := { s with x4 := circularLeft (F1 s.x7 s.x3 s.x6 s.x1 s.x2 s.x0 s.x5) 25 + circularLeft s.x4 21 + w }
/-- digest.go:281 -/
def p41_4 (w : U32) (s : S8) : S8 := { s with x3 := circularLeft (F1 s.x6 s.x2 s.x5 s.x0 s.x1 s.x7 s.x4) 25 + circularLeft s.x3 21 + w }
/-- digest.go:282 -/
def p41_5 (w : U32) (s : S8) : S8 := { s with x2 := circularLeft (F1 s.x5 s.x1 s.x4 s.x7 s.x0 s.x6 s.x3) 25 + circularLeft s.x2 21 + w }
/-- digest.go:283 -/
def p41_6 (w : U32) (s : S8) : S8 := { s with x1 := circularLeft (F1 s.x4 s.x0 s.x3 s.x6 s.x7 s.x5 s.x2) 25 + circularLeft s.x1 21 + w }
/-- digest.go:284 -/
def p41_7 (w : U32) (s : S8) : S8 := { s with x0 := circularLeft (F1 s.x3 s.x7 s.x2 s.x5 s.x6 s.x4 s.x1) 25 + circularLeft s.x0 21 + w }
/-- digest.go:266-289 -/
def pass41 (inw : List U32) (s : S8) : S8 :=
  [0, 8, 16, 24].foldl (fun s i =>
    let s := p41_0 (inw.getD (i + 0) 0) s
    let s := p41_1 (inw.getD (i + 1) 0) s
    let s := p41_2 (inw.getD (i + 2) 0) s
    let s := p41_3 (inw.getD (i + 3) 0) s
    let s := p41_4 (inw.getD (i + 4) 0) s
    let s := p41_5 (inw.getD (i + 5) 0) s
    let s := p41_6 (inw.getD (i + 6) 0) s
    let s := p41_7 (inw.getD (i + 7) 0) s
    s) s

/-- digest.go:302 -/
def p42_0 (w k : U32) (s : S8) : S8 := { s with x7 := circularLeft (F2 s.x3 s.x5 s.x2 s.x0 s.x1 s.x6 s.x4) 25 + circularLeft s.x7 21 + w + k }
/-- digest.go:303 -/
def p42_1 (w k : U32) (s : S8) : S8 := { s with x6 := circularLeft (F2 s.x2 s.x4 s.x1 s.x7 s.x0 s.x5 s.x3) 25 + circularLeft s.x6 21 + w + k }
/-- digest.go:304 -/
def p42_2 (w k : U32) (s : S8) : S8 := { s with x5 := circularLeft (F2 s.x1 s.x3 s.x0 s.x6 s.x7 s.x4 s.x2) 25 + circularLeft s.x5 21 + w + k }
/-- digest.go:305 -/
def p42_3 (w k : U32) (s : S8) : S8 := { s with x4 := circularLeft (F2 s.x0 s.x2 s.x7 s.x5 s.x6 s.x3 s.x1) 25 + circularLeft s.x4 21 + w + k }
/-- digest.go:306 -/
def p42_4 (w k : U32) (s : S8) : S8 := { s with x3 := circularLeft (F2 s.x7 s.x1 s.x6 s.x4 s.x5 s.x2 s.x0) 25 + circularLeft s.x3 21 + w + k }
/-- digest.go:307 -/
def p42_5 (w k : U32) (s : S8) : S8 := { s with x2 := circularLeft (F2 s.x6 s.x0 s.x5 s.x3 s.x4 s.x1 s.x7) 25 + circularLeft s.x2 21 + w + k }
/-- digest.go:308 -/
def p42_6 (w k : U32) (s : S8) : S8 := { s with x1 := circularLeft (F2 s.x5 s.x7 s.x4 s.x2 s.x3 s.x0 s.x6) 25 + circularLeft s.x1 21 + w + k }
/-- digest.go:309 -/
def p42_7 (w k : U32) (s : S8) : S8 := { s with x0 := circularLeft (F2 s.x4 s.x6 s.x3 s.x1 s.x2 s.x7 s.x5) 25 + circularLeft s.x0 21 + w + k }
/-- digest.go:291-314 -/
def pass42 (inw : List U32) (s : S8) : S8 :=
  [0, 8, 16, 24].foldl (fun s i =>
    let s := p42_0 (inw.getD (wp2.getD (i + 0) 0) 0) (K2.getD (i + 0) 0) s
    let s := p42_1 (inw.getD (wp2.getD (i + 1) 0) 0) (K2.getD (i + 1) 0) s
    let s := p42_2 (inw.getD (wp2.getD (i + 2) 0) 0) (K2.getD (i + 2) 0) s
    let s := p42_3 (inw.getD (wp2.getD (i + 3) 0) 0) (K2.getD (i + 3) 0) s
    let s := p42_4 (inw.getD (wp2.getD (i + 4) 0) 0) (K2.getD (i + 4) 0) s
    let s := p42_5 (inw.getD (wp2.getD (i + 5) 0) 0) (K2.getD (i + 5) 0) s
    let s := p42_6 (inw.getD (wp2.getD (i + 6) 0) 0) (K2.getD (i + 6) 0) s
    let s := p42_7 (inw.getD (wp2.getD (i + 7) 0) 0) (K2.getD (i + 7) 0) s
    s) s

/-- digest.go:327 -/
def p43_0 (w k : U32) (s : S8) : S8 := { s with x7 := circularLeft (F3 s.x1 s.x4 s.x3 s.x6 s.x0 s.x2 s.x5) 25 + circularLeft s.x7 21 + w + k }
/-- digest.go:328 -/
def p43_1 (w k : U32) (s : S8) : S8 := { s with x6 := circularLeft (F3 s.x0 s.x3 s.x2 s.x5 s.x7 s.x1 s.x4) 25 + circularLeft s.x6 21 + w + k }
/-- digest.go:329 -/
def p43_2 (w k : U32) (s : S8) : S8 := { s with x5 := circularLeft (F3 s.x7 s.x2 s.x1 s.x4 s.x6 s.x0 s.x3) 25 + circularLeft s.x5 21 + w + k }
/-- digest.go:330 -/
def p43_3 (w k : U32) (s : S8) : S8 := { s with x4 := circularLeft (F3 s.x6 s.x1 s.x0 s.x3 s.x5 s.x7 s.x2) 25 + circularLeft s.x4 21 + w + k }
/-- digest.go:331 -/
def p43_4 (w k : U32) (s : S8) : S8 := { s with x3 := circularLeft (F3 s.x5 s.x0 s.x7 s.x2 s.x4 s.x6 s.x1) 25 + circularLeft s.x3 21 + w + k }
/-- digest.go:332 -/
def p43_5 (w k : U32) (s : S8) : S8 := { s with x2 := circularLeft (F3 s.x4 s.x7 s.x6 s.x1 s.x3 s.x5 s.x0) 25 + circularLeft s.x2 21 + w + k }
/-- digest.go:333 -/
def p43_6 (w k : U32) (s : S8) : S8 := { s with x1 := circularLeft (F3 s.x3 s.x6 s.x5 s.x0 s.x2 s.x4 s.x7) 25 + circularLeft s.x1 21 + w + k }
/-- digest.go:334 -/
def p43_7 (w k : U32) (s : S8) : S8 := { s with x0 := circularLeft (F3 s.x2 s.x5 s.x4 s.x7 s.x1 s.x3 s.x6) 25 + circularLeft s.x0 21 + w + k }
/-- digest.go:316-339 -/
def pass43 (inw : List U32) (s : S8) : S8 :=
  [0, 8, 16, 24].foldl (fun s i =>
    let s := p43_0 (inw.getD (wp3.getD (i + 0) 0) 0) (K3.getD (i + 0) 0) s
    let s := p43_1 (inw.getD (wp3.getD (i + 1) 0) 0) (K3.getD (i + 1) 0) s
    let s := p43_2 (inw.getD (wp3.getD (i + 2) 0) 0) (K3.getD (i + 2) 0) s
    let s := p43_3 (inw.getD (wp3.getD (i + 3) 0) 0) (K3.getD (i + 3) 0) s
    let s := p43_4 (inw.getD (wp3.getD (i + 4) 0) 0) (K3.getD (i + 4) 0) s
    let s := p43_5 (inw.getD (wp3.getD (i + 5) 0) 0) (K3.getD (i + 5) 0) s
    let s := p43_6 (inw.getD (wp3.getD (i + 6) 0) 0) (K3.getD (i + 6) 0) s
    let s := p43_7 (inw.getD (wp3.getD (i + 7) 0) 0) (K3.getD (i + 7) 0) s
    s) s

/-- digest.go:352 -/
def p44_0 (w k : U32) (s : S8) : S8 := { s with x7 := circularLeft (F4 s.x6 s.x4 s.x0 s.x5 s.x2 s.x1 s.x3) 25 + circularLeft s.x7 21 + w + k }
/-- digest.go:353 -/
def p44_1 (w k : U32) (s : S8) : S8 := { s with x6 := circularLeft (F4 s.x5 s.x3 s.x7 s.x4 s.x1 s.x0 s.x2) 25 + circularLeft s.x6 21 + w + k }
/-- digest.go:354 -/
def p44_2 (w k : U32) (s : S8) : S8 := { s with x5 := circularLeft (F4 s.x4 s.x2 s.x6 s.x3 s.x0 s.x7 s.x1) 25 + circularLeft s.x5 21 + w + k }
/-- digest.go:355 -/
def p44_3 (w k : U32) (s : S8) : S8 := { s with x4 := circularLeft (F4 s.x3 s.x1 s.x5 s.x2 s.x7 s.x6 s.x0) 25 + circularLeft s.x4 21 + w + k }
/-- digest.go:356 -/
def p44_4 (w k : U32) (s : S8) : S8 := { s with x3 := circularLeft (F4 s.x2 s.x0 s.x4 s.x1 s.x6 s.x5 s.x7) 25 + circularLeft s.x3 21 + w + k }
/-- digest.go:357 -/
def p44_5 (w k : U32) (s : S8) : S8 := { s with x2 := circularLeft (F4 s.x1 s.x7 s.x3 s.x0 s.x5 s.x4 s.x6) 25 + circularLeft s.x2 21 + w + k }
/-- digest.go:358 -/
def p44_6 (w k : U32) (s : S8) : S8 := { s with x1 := circularLeft (F4 s.x0 s.x6 s.x2 s.x7 s.x4 s.x3 s.x5) 25 + circularLeft s.x1 21 + w + k }
/-- digest.go:359 -/
def p44_7 (w k : U32) (s : S8) : S8 := { s with x0 := circularLeft (F4 s.x7 s.x5 s.x1 s.x6 s.x3 s.x2 s.x4) 25 + circularLeft s.x0 21 + w + k }
/-- digest.go:341-364 -/
def pass44 (inw : List U32) (s : S8) : S8 :=
  [0, 8, 16, 24].foldl (fun s i =>
    let s := p44_0 (inw.getD (wp4.getD (i + 0) 0) 0) (K4.getD (i + 0) 0) s
    let s := p44_1 (inw.getD (wp4.getD (i + 1) 0) 0) (K4.getD (i + 1) 0) s
    let s := p44_2 (inw.getD (wp4.getD (i + 2) 0) 0) (K4.getD (i + 2) 0) s
    let s := p44_3 (inw.getD (wp4.getD (i + 3) 0) 0) (K4.getD (i + 3) 0) s
    let s := p44_4 (inw.getD (wp4.getD (i + 4) 0) 0) (K4.getD (i + 4) 0) s
    let s := p44_5 (inw.getD (wp4.getD (i + 5) 0) 0) (K4.getD (i + 5) 0) s
    let s := p44_6 (inw.getD (wp4.getD (i + 6) 0) 0) (K4.getD (i + 6) 0) s
    let s := p44_7 (inw.getD (wp4.getD (i + 7) 0) 0) (K4.getD (i + 7) 0) s
    s) s

/-- digest.go:377 -/
def p51_0 (w : U32) (s : S8) : S8 := { s with x7 := circularLeft (F1 s.x3 s.x4 s.x1 s.x0 s.x5 s.x2 s.x6) 25 + circularLeft s.x7 21 + w }
/-- digest.go:378 -/
def p51_1 (w : U32) (s : S8) : S8 := { s with x6 := circularLeft (F1 s.x2 s.x3 s.x0 s.x7 s.x4 s.x1 s.x5) 25 + circularLeft s.x6 21 + w }
/-- digest.go:379 -/
def p51_2 (w : U32) (s : S8) : S8 := { s with x5 := circularLeft (F1 s.x1 s.x2 s.x7 s.x6 s.x3 s.x0 s.x4) 25 + circularLeft s.x5 21 + w }
/-- digest.go:380 -/
def p51_3 (w : U32) (s : S8) : S8 := { s with x4 := circularLeft (F1 s.x0 s.x1 s.x6 s.x5 s.x2 s.x7 s.x3) 25 + circularLeft s.x4 21 + w }
/-- digest.go:381 -/
def p51_4 (w : U32) (s : S8) : S8 := { s with x3 := circularLeft (F1 s.x7 s.x0 s.x5 s.x4 s.x1 s.x6 s.x2) 25 + circularLeft s.x3 21 + w }
/-- digest.go:382 -/
def p51_5 (w : U32) (s : S8) : S8 := { s with x2 := circularLeft (F1 s.x6 s.x7 s.x4 s.x3 s.x0 s.x5 s.x1) 25 + circularLeft s.x2 21 + w }
/-- digest.go:383 -/
def p51_6 (w : U32) (s : S8) : S8 := { s with x1 := circularLeft (F1 s.x5 s.x6 s.x3 s.x2 s.x7 s.x4 s.x0) 25 + circularLeft s.x1 21 + w }
/-- digest.go:384 -/
def p51_7 (w : U32) (s : S8) : S8 := { s with x0 := circularLeft (F1 s.x4 s.x5 s.x2 s.x1 s.x6 s.x3 s.x7) 25 + circularLeft s.x0 21 + w }
/-- digest.go:366-389 -/
def pass51 (inw : List U32) (s : S8) : S8 :=
  [0, 8, 16, 24].foldl (fun s i =>
    let s := p51_0 (inw.getD (i + 0) 0) s
    let s := p51_1 (inw.getD (i + 1) 0) s
    let s := p51_2 (inw.getD (i + 2) 0) s
    let s := p51_3 (inw.getD (i + 3) 0) s
    let s := p51_4 (inw.getD (i + 4) 0) s
    let s := p51_5 (inw.getD (i + 5) 0) s
    let s := p51_6 (inw.getD (i + 6) 0) s
    let s := p51_7 (inw.getD (i + 7) 0) s
    s) s

/-- digest.go:402 -/
def p52_0 (w k : U32) (s : S8) : S8 := { s with x7 := circularLeft (F2 s.x6 s.x2 s.x1 s.x0 s.x3 s.x4 s.x5) 25 + circularLeft s.x7 21 + w + k }
/-- digest.go:403 -/
def p52_1 (w k : U32) (s : S8) : S8 := { s with x6 := circularLeft (F2 s.x5 s.x1 s.x0 s.x7 s.x2 s.x3 s.x4) 25 + circularLeft s.x6 21 + w + k }
/-- digest.go:404 -/
def p52_2 (w k : U32) (s : S8) : S8 := { s with x5 := circularLeft (F2 s.x4 s.x0 s.x7 s.x6 s.x1 s.x2 s.x3) 25 + circularLeft s.x5 21 + w + k }
/-- digest.go:405 -/
def p52_3 (w k : U32) (s : S8) : S8 := { s with x4 := circularLeft (F2 s.x3 s.x7 s.x6 s.x5 s.x0 s.x1 s.x2) 25 + circularLeft s.x4 21 + w + k }
/-- digest.go:406 -/
def p52_4 (w k : U32) (s : S8) : S8 := { s with x3 := circularLeft (F2 s.x2 s.x6 s.x5 s.x4 s.x7 s.x0 s.x1) 25 + circularLeft s.x3 21 + w + k }
/-- digest.go:407 -/
def p52_5 (w k : U32) (s : S8) : S8 := { s with x2 := circularLeft (F2 s.x1 s.x5 s.x4 s.x3 s.x6 s.x7 s.x0) 25 + circularLeft s.x2 21 + w + k }
/-- digest.go:408 -/
def p52_6 (w k : U32) (s : S8) : S8 := { s with x1 := circularLeft (F2 s.x0 s.x4 s.x3 s.x2 s.x5 s.x6 s.x7) 25 + circularLeft s.x1 21 + w + k }
/-- digest.go:409 -/
def p52_7 (w k : U32) (s : S8) : S8 := { s with x0 := circularLeft (F2 s.x7 s.x3 s.x2 s.x1 s.x4 s.x5 s.x6) 25 + circularLeft s.x0 21 + w + k }
/-- digest.go:391-414 -/
def pass52 (inw : List U32) (s : S8) : S8 :=
  [0, 8, 16, 24].foldl (fun s i =>
    let s := p52_0 (inw.getD (wp2.getD (i + 0) 0) 0) (K2.getD (i + 0) 0) s
    let s := p52_1 (inw.getD (wp2.getD (i + 1) 0) 0) (K2.getD (i + 1) 0) s
    let s := p52_2 (inw.getD (wp2.getD (i + 2) 0) 0) (K2.getD (i + 2) 0) s
    let s := p52_3 (inw.getD (wp2.getD (i + 3) 0) 0) (K2.getD (i + 3) 0) s
    let s := p52_4 (inw.getD (wp2.getD (i + 4) 0) 0) (K2.getD (i + 4) 0) s
    let s := p52_5 (inw.getD (wp2.getD (i + 5) 0) 0) (K2.getD (i + 5) 0) s
    let s := p52_6 (inw.getD (wp2.getD (i + 6) 0) 0) (K2.getD (i + 6) 0) s
    let s := p52_7 (inw.getD (wp2.getD (i + 7) 0) 0) (K2.getD (i + 7) 0) s
    s) s

/-- digest.go:427 -/
def p53_0 (w k : U32) (s : S8) : S8 := { s with x7 := circularLeft (F3 s.x2 s.x6 s.x0 s.x4 s.x3 s.x1 s.x5) 25 + circularLeft s.x7 21 + w + k }
/-- digest.go:428 -/
def p53_1 (w k : U32) (s : S8) : S8 := { s with x6 := circularLeft (F3 s.x1 s.x5 s.x7 s.x3 s.x2 s.x0 s.x4) 25 + circularLeft s.x6 21 + w + k }
/-- digest.go:429 -/
def p53_2 (w k : U32) (s : S8) : S8 := { s with x5 := circularLeft (F3 s.x0 s.x4 s.x6 s.x2 s.x1 s.x7 s.x3) 25 + circularLeft s.x5 21 + w + k }
/-- digest.go:430 -/
def p53_3 (w k : U32) (s : S8) : S8 := { s with x4 := circularLeft (F3 s.x7 s.x3 s.x5 s.x1 s.x0 s.x6 s.x2) 25 + circularLeft s.x4 21 + w + k }
/-- digest.go:431 -/
def p53_4 (w k : U32) (s : S8) : S8 := { s with x3 := circularLeft (F3 s.x6 s.x2 s.x4 s.x0 s.x7 s.x5 s.x1) 25 + circularLeft s.x3 21 + w + k }
/-- digest.go:432 -/
def p53_5 (w k : U32) (s : S8) : S8 := { s with x2 := circularLeft (F3 s.x5 s.x1 s.x3 s.x7 s.x6 s.x4 s.x0) 25 + circularLeft s.x2 21 + w + k }
/-- digest.go:433 -/
def p53_6 (w k : U32) (s : S8) : S8 := { s with x1 := circularLeft (F3 s.x4 s.x0 s.x2 s.x6 s.x5 s.x3 s.x7) 25 + circularLeft s.x1 21 + w + k }
/-- digest.go:434 -/
def p53_7 (w k : U32) (s : S8) : S8 := { s with x0 := circularLeft (F3 s.x3 s.x7 s.x1 s.x5 s.x4 s.x2 s.x6) 25 + circularLeft s.x0 21 + w + k }
/-- digest.go:416-439 -/
def pass53 (inw : List U32) (s : S8) : S8 :=
  [0, 8, 16, 24].foldl (fun s i =>
    let s := p53_0 (inw.getD (wp3.getD (i + 0) 0) 0) (K3.getD (i + 0) 0) s
    let s := p53_1 (inw.getD (wp3.getD (i + 1) 0) 0) (K3.getD (i + 1) 0) s
    let s := p53_2 (inw.getD (wp3.getD (i + 2) 0) 0) (K3.getD (i + 2) 0) s
    let s := p53_3 (inw.getD (wp3.getD (i + 3) 0) 0) (K3.getD (i + 3) 0) s
    let s := p53_4 (inw.getD (wp3.getD (i + 4) 0) 0) (K3.getD (i + 4) 0) s
    let s := p53_5 (inw.getD (wp3.getD (i + 5) 0) 0) (K3.getD (i + 5) 0) s
    let s := p53_6 (inw.getD (wp3.getD (i + 6) 0) 0) (K3.getD (i + 6) 0) s
    let s := p53_7 (inw.getD (wp3.getD (i + 7) 0) 0) (K3.getD (i + 7) 0) s
    s) s

/-- digest.go:452 -/
def p54_0 (w k : U32) (s : S8) : S8 := { s with x7 := circularLeft (F4 s.x1 s.x5 s.x3 s.x2 s.x0 s.x4 s.x6) 25 + circularLeft s.x7 21 + w + k }
/-- digest.go:453 -/
def p54_1 (w k : U32) (s : S8) : S8 := { s with x6 := circularLeft (F4 s.x0 s.x4 s.x2 s.x1 s.x7 s.x3 s.x5) 25 + circularLeft s.x6 21 + w + k }
/-- digest.go:454 -/
def p54_2 (w k : U32) (s : S8) : S8 := { s with x5 := circularLeft (F4 s.x7 s.x3 s.x1 s.x0 s.x6 s.x2 s.x4) 25 + circularLeft s.x5 21 + w + k }
/-- digest.go:455 -/
def p54_3 (w k : U32) (s : S8) : S8 := { s with x4 := circularLeft (F4 s.x6 s.x2 s.x0 s.x7 s.x5 s.x1 s.x3) 25 + circularLeft s.x4 21 + w + k }
/-- digest.go:456 -/
def p54_4 (w k : U32) (s : S8) : S8 := { s with x3 := circularLeft (F4 s.x5 s.x1 s.x7 s.x6 s.x4 s.x0 s.x2) 25 + circularLeft s.x3 21 + w + k }
/-- digest.go:457 -/
def p54_5 (w k : U32) (s : S8) : S8 := { s with x2 := circularLeft (F4 s.x4 s.x0 s.x6 s.x5 s.x3 s.x7 s.x1) 25 + circularLeft s.x2 21 + w + k }
/-- digest.go:458 -/
def p54_6 (w k : U32) (s : S8) : S8 := { s with x1 := circularLeft (F4 s.x3 s.x7 s.x5 s.x4 s.x2 s.x6 s.x0) 25 + circularLeft s.x1 21 + w + k }
/-- digest.go:459 -/
def p54_7 (w k : U32) (s : S8) : S8 := { s with x0 := circularLeft (F4 s.x2 s.x6 s.x4 s.x3 s.x1 s.x5 s.x7) 25 + circularLeft s.x0 21 + w + k }
/-- digest.go:441-464 -/
def pass54 (inw : List U32) (s : S8) : S8 :=
  [0, 8, 16, 24].foldl (fun s i =>
    let s := p54_0 (inw.getD (wp4.getD (i + 0) 0) 0) (K4.getD (i + 0) 0) s
    let s := p54_1 (inw.getD (wp4.getD (i + 1) 0) 0) (K4.getD (i + 1) 0) s
    let s := p54_2 (inw.getD (wp4.getD (i + 2) 0) 0) (K4.getD (i + 2) 0) s
    let s := p54_3 (inw.getD (wp4.getD (i + 3) 0) 0) (K4.getD (i + 3) 0) s
    let s := p54_4 (inw.getD (wp4.getD (i + 4) 0) 0) (K4.getD (i + 4) 0) s
    let s := p54_5 (inw.getD (wp4.getD (i + 5) 0) 0) (K4.getD (i + 5) 0) s
    let s := p54_6 (inw.getD (wp4.getD (i + 6) 0) 0) (K4.getD (i + 6) 0) s
    let s := p54_7 (inw.getD (wp4.getD (i + 7) 0) 0) (K4.getD (i + 7) 0) s
    s) s

/-- digest.go:477 -/
def p55_0 (w k : U32) (s : S8) : S8 := { s with x7 := circularLeft (F5 s.x2 s.x5 s.x0 s.x6 s.x4 s.x3 s.x1) 25 + circularLeft s.x7 21 + w + k }
/-- digest.go:478 -/
def p55_1 (w k : U32) (s : S8) : S8 := { s with x6 := circularLeft (F5 s.x1 s.x4 s.x7 s.x5 s.x3 s.x2 s.x0) 25 + circularLeft s.x6 21 + w + k }
/-- digest.go:479 -/
def p55_2 (w k : U32) (s : S8) : S8 := { s with x5 := circularLeft (F5 s.x0 s.x3 s.x6 s.x4 s.x2 s.x1 s.x7) 25 + circularLeft s.x5 21 + w + k }
/-- digest.go:480 -/
def p55_3 (w k : U32) (s : S8) : S8 := { s with x4 := circularLeft (F5 s.x7 s.x2 s.x5 s.x3 s.x1 s.x0 s.x6) 25 + circularLeft s.x4 21 + w + k }
/-- digest.go:481 -/
def p55_4 (w k : U32) (s : S8) : S8 := { s with x3 := circularLeft (F5 s.x6 s.x1 s.x4 s.x2 s.x0 s.x7 s.x5) 25 + circularLeft s.x3 21 + w + k }
/-- digest.go:482 -/
def p55_5 (w k : U32) (s : S8) : S8 := { s with x2 := circularLeft (F5 s.x5 s.x0 s.x3 s.x1 s.x7 s.x6 s.x4) 25 + circularLeft s.x2 21 + w + k }
/-- digest.go:483 -/
def p55_6 (w k : U32) (s : S8) : S8 := { s with x1 := circularLeft (F5 s.x4 s.x7 s.x2 s.x0 s.x6 s.x5 s.x3) 25 + circularLeft s.x1 21 + w + k }
/-- digest.go:484 -/
def p55_7 (w k : U32) (s : S8) : S8 := { s with x0 := circularLeft (F5 s.x3 s.x6 s.x1 s.x7 s.x5 s.x4 s.x2) 25 + circularLeft s.x0 21 + w + k }
/-- digest.go:466-489 -/
def pass55 (inw : List U32) (s : S8) : S8 :=
  [0, 8, 16, 24].foldl (fun s i =>
    let s := p55_0 (inw.getD (wp5.getD (i + 0) 0) 0) (K5.getD (i + 0) 0) s
    let s := p55_1 (inw.getD (wp5.getD (i + 1) 0) 0) (K5.getD (i + 1) 0) s
    let s := p55_2 (inw.getD (wp5.getD (i + 2) 0) 0) (K5.getD (i + 2) 0) s
    let s := p55_3 (inw.getD (wp5.getD (i + 3) 0) 0) (K5.getD (i + 3) 0) s
    let s := p55_4 (inw.getD (wp5.getD (i + 4) 0) 0) (K5.getD (i + 4) 0) s
    let s := p55_5 (inw.getD (wp5.getD (i + 5) 0) 0) (K5.getD (i + 5) 0) s
    let s := p55_6 (inw.getD (wp5.getD (i + 6) 0) 0) (K5.getD (i + 6) 0) s
    let s := p55_7 (inw.getD (wp5.getD (i + 7) 0) 0) (K5.getD (i + 7) 0) s
    s) s

/-- digest.go:149-189: words of the block, passes, feed-forward. -/
def processBlock (passes : Nat) (d : S8) (data : Bytes) : S8 :=
  let inw := forLoop 0 32 (fun (inw : List U32) i => inw.set i (getLE32 data (4 * i))) (List.replicate 32 0)
  let s := if passes = 3 then pass33 inw (pass32 inw (pass31 inw d))
    else if passes = 4 then pass44 inw (pass43 inw (pass42 inw (pass41 inw d)))
    else if passes = 5 then pass55 inw (pass54 inw (pass53 inw (pass52 inw (pass51 inw d))))
    else d
  { x0 := s.x0 + d.x0, x1 := s.x1 + d.x1, x2 := s.x2 + d.x2, x3 := s.x3 + d.x3, x4 := s.x4 + d.x4, x5 := s.x5 + d.x5, x6 := s.x6 + d.x6, x7 := s.x7 + d.x7 }

/-- utils.go:80-90 -/
def mix128 (a0 a1 a2 a3 : U32) (n : Nat) : U32 :=
  let tmp := (a0 &&& 0x000000FF) ||| (a1 &&& 0x0000FF00) ||| (a2 &&& 0x00FF0000) ||| (a3 &&& 0xFF000000)
  if n > 0 then circularLeft tmp n else tmp
/-- utils.go:92-99 -/
def mix160_0 (x5 x6 x7 : U32) : U32 := circularLeft ((x5 &&& 0x01F80000) ||| (x6 &&& 0xFE000000) ||| (x7 &&& 0x0000003F)) 13
/-- utils.go:101-108 -/
def mix160_1 (x5 x6 x7 : U32) : U32 := circularLeft ((x5 &&& 0xFE000000) ||| (x6 &&& 0x0000003F) ||| (x7 &&& 0x00000FC0)) 7
/-- utils.go:110-114 -/
def mix160_2 (x5 x6 x7 : U32) : U32 := (x5 &&& 0x0000003F) ||| (x6 &&& 0x00000FC0) ||| (x7 &&& 0x0007F000)
/-- utils.go:116-120 -/
def mix160_3 (x5 x6 x7 : U32) : U32 := ((x5 &&& 0x00000FC0) ||| (x6 &&& 0x0007F000) ||| (x7 &&& 0x01F80000)) >>> 6
/-- utils.go:122-126 -/
def mix160_4 (x5 x6 x7 : U32) : U32 := ((x5 &&& 0x0007F000) ||| (x6 &&& 0x01F80000) ||| (x7 &&& 0xFE000000)) >>> 12
/-- utils.go:128-130 -/
def mix192_0 (x6 x7 : U32) : U32 := circularLeft ((x6 &&& 0xFC000000) ||| (x7 &&& 0x0000001F)) 6
/-- utils.go:132-134 -/
def mix192_1 (x6 x7 : U32) : U32 := (x6 &&& 0x0000001F) ||| (x7 &&& 0x000003E0)
/-- utils.go:136-138 -/
def mix192_2 (x6 x7 : U32) : U32 := ((x6 &&& 0x000003E0) ||| (x7 &&& 0x0000FC00)) >>> 5
/-- utils.go:140-142 -/
def mix192_3 (x6 x7 : U32) : U32 := ((x6 &&& 0x0000FC00) ||| (x7 &&& 0x001F0000)) >>> 10
/-- utils.go:144-146 -/
def mix192_4 (x6 x7 : U32) : U32 := ((x6 &&& 0x001F0000) ||| (x7 &&& 0x03E00000)) >>> 16
/-- utils.go:148-150 -/
def mix192_5 (x6 x7 : U32) : U32 := ((x6 &&& 0x03E00000) ||| (x7 &&& 0xFC000000)) >>> 21

/-- digest.go:491-503.  The five functions write the words one after another to a fresh slice of their size. -/
def write128 (s : S8) : Bytes :=
  le32 (s.x0 + mix128 s.x7 s.x4 s.x5 s.x6 24) ++ le32 (s.x1 + mix128 s.x6 s.x7 s.x4 s.x5 16) ++ le32 (s.x2 + mix128 s.x5 s.x6 s.x7 s.x4 8) ++ le32 (s.x3 + mix128 s.x4 s.x5 s.x6 s.x7 0)
/-- digest.go:505-518 -/
def write160 (s : S8) : Bytes :=
  le32 (s.x0 + mix160_0 s.x5 s.x6 s.x7) ++ le32 (s.x1 + mix160_1 s.x5 s.x6 s.x7) ++ le32 (s.x2 + mix160_2 s.x5 s.x6 s.x7) ++ le32 (s.x3 + mix160_3 s.x5 s.x6 s.x7) ++
    le32 (s.x4 + mix160_4 s.x5 s.x6 s.x7)
/-- digest.go:520-534 -/
def write192 (s : S8) : Bytes :=
  le32 (s.x0 + mix192_0 s.x6 s.x7) ++ le32 (s.x1 + mix192_1 s.x6 s.x7) ++ le32 (s.x2 + mix192_2 s.x6 s.x7) ++ le32 (s.x3 + mix192_3 s.x6 s.x7) ++ le32 (s.x4 + mix192_4 s.x6 s.x7) ++
    le32 (s.x5 + mix192_5 s.x6 s.x7)
/-- digest.go:536-551 -/
def write224 (s : S8) : Bytes :=
  le32 (s.x0 + ((s.x7 >>> 27) &&& 0x1F)) ++ le32 (s.x1 + ((s.x7 >>> 22) &&& 0x1F)) ++ le32 (s.x2 + ((s.x7 >>> 18) &&& 0x0F)) ++ le32 (s.x3 + ((s.x7 >>> 13) &&& 0x1F)) ++
    le32 (s.x4 + ((s.x7 >>> 9) &&& 0x0F)) ++ le32 (s.x5 + ((s.x7 >>> 4) &&& 0x1F)) ++ le32 (s.x6 + (s.x7 &&& 0x0F))
/-- digest.go:553-569 -/
def write256 (s : S8) : Bytes := le32 s.x0 ++ le32 s.x1 ++ le32 s.x2 ++ le32 s.x3 ++ le32 s.x4 ++ le32 s.x5 ++ le32 s.x6 ++ le32 s.x7

/-- digest.go:571-586 -/
def writeOutput (olen : Nat) (s : S8) : Bytes :=
  if olen = 4 then write128 s else if olen = 5 then write160 s else if olen = 6 then write192 s else if olen = 7 then write224 s else if olen = 8 then write256 s else []

/-- digest.go:19-38.  The array s is never used, inw and padBuf are overwritten before they are read; they are left out. -/
structure Digest where
  s : S8
  x : Bytes
  nx : Nat
  len : U64
  olen : Nat
  passes : Nat

/-- digest.go:65-83 -/
def Digest.reset (d : Digest) : Digest :=
  { d with x := zeros 128, nx := 0, len := 0,
           s := ⟨iv.getD 0 0, iv.getD 1 0, iv.getD 2 0, iv.getD 3 0, iv.getD 4 0, iv.getD 5 0, iv.getD 6 0, iv.getD 7 0⟩ }
/-- digest.go:41-63; `none` is the error. -/
def newDigest (outputLength passes : U32) : Option Digest :=
  let olen := (outputLength >>> 5).toNat
  if olen = 4 ∨ olen = 5 ∨ olen = 6 ∨ olen = 7 ∨ olen = 8 then
    if passes.toNat = 3 ∨ passes.toNat = 4 ∨ passes.toNat = 5 then
      some (Digest.reset { s := ⟨0, 0, 0, 0, 0, 0, 0, 0⟩, x := [], nx := 0, len := 0, olen := olen, passes := passes.toNat })
    else none
  else none

/-- digest.go:93-116 -/
def Digest.write (d : Digest) (p : Bytes) : Digest × Nat :=
  let w := loopWrite 128 (fun s x _ => processBlock d.passes s x) (fun s _ => s) (p.length + 1) d.s d.x d.nx p
  ({ d with s := w.1, x := w.2.1, nx := w.2.2, len := d.len + BitVec.ofNat 64 p.length }, p.length)

/-- digest.go:125-147 -/
def Digest.checkSum (d : Digest) : Bytes :=
  let dataLen := d.nx
  let currentLength : U64 := (((d.len / 128) <<< 7) + BitVec.ofNat 64 dataLen) <<< 3
  let padBuf : Bytes := [0x01 ||| BitVec.ofNat 8 (d.passes <<< 3), BitVec.ofNat 8 (d.olen <<< 3)] ++ le32 (currentLength.setWidth 32) ++ le32 ((currentLength >>> 32).setWidth 32)
  let endLen := (dataLen + 138) / 128 * 128
  let d := (d.write [0x01]).1
  let d := forLoop (dataLen + 1) (endLen - 10) (fun d _ => (d.write [0x00]).1) d
  let d := (d.write padBuf).1
  writeOutput d.olen d.s

/-- digest.go:85-91, 118-123 -/
def impl : HashImpl Digest where
  write d p := some (d.write p)
  sum d b := some (d, b ++ d.checkSum)
  reset := Digest.reset
  size d := d.olen * 4
  blockSize _ := 128

end Verif.Haval
