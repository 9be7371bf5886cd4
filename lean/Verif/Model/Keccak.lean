import Verif.Basic
/-
Generated by tools/gen_keccak.py from k12/keccakf.go: one Lean line per Go line.
-/
namespace Verif.Keccak

/-- k12/keccakf.go:6-31 `rc` -/
def rc : List U64 := [
  0x0000000000000001#64, 0x0000000000008082#64, 0x800000000000808A#64, 0x8000000080008000#64,
  0x000000000000808B#64, 0x0000000080000001#64, 0x8000000080008081#64, 0x8000000000008009#64,
  0x000000000000008A#64, 0x0000000000000088#64, 0x0000000080008009#64, 0x000000008000000A#64,
  0x000000008000808B#64, 0x800000000000008B#64, 0x8000000000008089#64, 0x8000000000008003#64,
  0x8000000000008002#64, 0x8000000000000080#64, 0x000000000000800A#64, 0x800000008000000A#64,
  0x8000000080008081#64, 0x8000000000008080#64, 0x0000000080000001#64, 0x8000000080008008#64]

/-- k12/keccakf.go:45-135 round 1 of the four; `c` is the round constant rc[i]; `t<<n | t>>(64-n)` as written. -/
def round1 (c : U64) : List U64 → List U64
  | [a0, a1, a2, a3, a4, a5, a6, a7, a8, a9, a10, a11, a12, a13, a14, a15, a16, a17, a18, a19, a20, a21, a22, a23, a24] =>
    let bc0 := a0 ^^^ a5 ^^^ a10 ^^^ a15 ^^^ a20
    let bc1 := a1 ^^^ a6 ^^^ a11 ^^^ a16 ^^^ a21
    let bc2 := a2 ^^^ a7 ^^^ a12 ^^^ a17 ^^^ a22
    let bc3 := a3 ^^^ a8 ^^^ a13 ^^^ a18 ^^^ a23
    let bc4 := a4 ^^^ a9 ^^^ a14 ^^^ a19 ^^^ a24
    let d0 := bc4 ^^^ (bc1 <<< 1 ||| bc1 >>> 63)
    let d1 := bc0 ^^^ (bc2 <<< 1 ||| bc2 >>> 63)
    let d2 := bc1 ^^^ (bc3 <<< 1 ||| bc3 >>> 63)
    let d3 := bc2 ^^^ (bc4 <<< 1 ||| bc4 >>> 63)
    let d4 := bc3 ^^^ (bc0 <<< 1 ||| bc0 >>> 63)
    let bc0 := a0 ^^^ d0
    let t := a6 ^^^ d1
    let bc1 := t <<< 44 ||| t >>> (64 - 44)
    let t := a12 ^^^ d2
    let bc2 := t <<< 43 ||| t >>> (64 - 43)
    let t := a18 ^^^ d3
    let bc3 := t <<< 21 ||| t >>> (64 - 21)
    let t := a24 ^^^ d4
    let bc4 := t <<< 14 ||| t >>> (64 - 14)
    let a0 := bc0 ^^^ (bc2 &&& ~~~bc1) ^^^ c
    let a6 := bc1 ^^^ (bc3 &&& ~~~bc2)
    let a12 := bc2 ^^^ (bc4 &&& ~~~bc3)
    let a18 := bc3 ^^^ (bc0 &&& ~~~bc4)
    let a24 := bc4 ^^^ (bc1 &&& ~~~bc0)
    let t := a10 ^^^ d0
    let bc2 := t <<< 3 ||| t >>> (64 - 3)
    let t := a16 ^^^ d1
    let bc3 := t <<< 45 ||| t >>> (64 - 45)
    let t := a22 ^^^ d2
    let bc4 := t <<< 61 ||| t >>> (64 - 61)
    let t := a3 ^^^ d3
    let bc0 := t <<< 28 ||| t >>> (64 - 28)
    let t := a9 ^^^ d4
    let bc1 := t <<< 20 ||| t >>> (64 - 20)
    let a10 := bc0 ^^^ (bc2 &&& ~~~bc1)
    let a16 := bc1 ^^^ (bc3 &&& ~~~bc2)
    let a22 := bc2 ^^^ (bc4 &&& ~~~bc3)
    let a3 := bc3 ^^^ (bc0 &&& ~~~bc4)
    let a9 := bc4 ^^^ (bc1 &&& ~~~bc0)
    let t := a20 ^^^ d0
    let bc4 := t <<< 18 ||| t >>> (64 - 18)
    let t := a1 ^^^ d1
    let bc0 := t <<< 1 ||| t >>> (64 - 1)
    let t := a7 ^^^ d2
    let bc1 := t <<< 6 ||| t >>> (64 - 6)
    let t := a13 ^^^ d3
    let bc2 := t <<< 25 ||| t >>> (64 - 25)
    let t := a19 ^^^ d4
    let bc3 := t <<< 8 ||| t >>> (64 - 8)
    let a20 := bc0 ^^^ (bc2 &&& ~~~bc1)
    let a1 := bc1 ^^^ (bc3 &&& ~~~bc2)
    let a7 := bc2 ^^^ (bc4 &&& ~~~bc3)
    let a13 := bc3 ^^^ (bc0 &&& ~~~bc4)
    let a19 := bc4 ^^^ (bc1 &&& ~~~bc0)
    let t := a5 ^^^ d0
    let bc1 := t <<< 36 ||| t >>> (64 - 36)
    let t := a11 ^^^ d1
    let bc2 := t <<< 10 ||| t >>> (64 - 10)
    let t := a17 ^^^ d2
    let bc3 := t <<< 15 ||| t >>> (64 - 15)
    let t := a23 ^^^ d3
    let bc4 := t <<< 56 ||| t >>> (64 - 56)
    let t := a4 ^^^ d4
    let bc0 := t <<< 27 ||| t >>> (64 - 27)
    let a5 := bc0 ^^^ (bc2 &&& ~~~bc1)
    let a11 := bc1 ^^^ (bc3 &&& ~~~bc2)
    let a17 := bc2 ^^^ (bc4 &&& ~~~bc3)
    let a23 := bc3 ^^^ (bc0 &&& ~~~bc4)
    let a4 := bc4 ^^^ (bc1 &&& ~~~bc0)
    let t := a15 ^^^ d0
    let bc3 := t <<< 41 ||| t >>> (64 - 41)
    let t := a21 ^^^ d1
    let bc4 := t <<< 2 ||| t >>> (64 - 2)
    let t := a2 ^^^ d2
    let bc0 := t <<< 62 ||| t >>> (64 - 62)
    let t := a8 ^^^ d3
    let bc1 := t <<< 55 ||| t >>> (64 - 55)
    let t := a14 ^^^ d4
    let bc2 := t <<< 39 ||| t >>> (64 - 39)
    let a15 := bc0 ^^^ (bc2 &&& ~~~bc1)
    let a21 := bc1 ^^^ (bc3 &&& ~~~bc2)
    let a2 := bc2 ^^^ (bc4 &&& ~~~bc3)
    let a8 := bc3 ^^^ (bc0 &&& ~~~bc4)
    let a14 := bc4 ^^^ (bc1 &&& ~~~bc0)
    [a0, a1, a2, a3, a4, a5, a6, a7, a8, a9, a10, a11, a12, a13, a14, a15, a16, a17, a18, a19, a20, a21, a22, a23, a24]
  | s => s

/-- k12/keccakf.go:136-226 round 2 of the four; `c` is the round constant rc[i+1]; `t<<n | t>>(64-n)` as written. -/
def round2 (c : U64) : List U64 → List U64
  | [a0, a1, a2, a3, a4, a5, a6, a7, a8, a9, a10, a11, a12, a13, a14, a15, a16, a17, a18, a19, a20, a21, a22, a23, a24] =>
    let bc0 := a0 ^^^ a5 ^^^ a10 ^^^ a15 ^^^ a20
    let bc1 := a1 ^^^ a6 ^^^ a11 ^^^ a16 ^^^ a21
    let bc2 := a2 ^^^ a7 ^^^ a12 ^^^ a17 ^^^ a22
    let bc3 := a3 ^^^ a8 ^^^ a13 ^^^ a18 ^^^ a23
    let bc4 := a4 ^^^ a9 ^^^ a14 ^^^ a19 ^^^ a24
    let d0 := bc4 ^^^ (bc1 <<< 1 ||| bc1 >>> 63)
    let d1 := bc0 ^^^ (bc2 <<< 1 ||| bc2 >>> 63)
    let d2 := bc1 ^^^ (bc3 <<< 1 ||| bc3 >>> 63)
    let d3 := bc2 ^^^ (bc4 <<< 1 ||| bc4 >>> 63)
    let d4 := bc3 ^^^ (bc0 <<< 1 ||| bc0 >>> 63)
    let bc0 := a0 ^^^ d0
    let t := a16 ^^^ d1
    let bc1 := t <<< 44 ||| t >>> (64 - 44)
    let t := a7 ^^^ d2
    let bc2 := t <<< 43 ||| t >>> (64 - 43)
    let t := a23 ^^^ d3
    let bc3 := t <<< 21 ||| t >>> (64 - 21)
    let t := a14 ^^^ d4
    let bc4 := t <<< 14 ||| t >>> (64 - 14)
    let a0 := bc0 ^^^ (bc2 &&& ~~~bc1) ^^^ c
    let a16 := bc1 ^^^ (bc3 &&& ~~~bc2)
    let a7 := bc2 ^^^ (bc4 &&& ~~~bc3)
    let a23 := bc3 ^^^ (bc0 &&& ~~~bc4)
    let a14 := bc4 ^^^ (bc1 &&& ~~~bc0)
    let t := a20 ^^^ d0
    let bc2 := t <<< 3 ||| t >>> (64 - 3)
    let t := a11 ^^^ d1
    let bc3 := t <<< 45 ||| t >>> (64 - 45)
    let t := a2 ^^^ d2
    let bc4 := t <<< 61 ||| t >>> (64 - 61)
    let t := a18 ^^^ d3
    let bc0 := t <<< 28 ||| t >>> (64 - 28)
    let t := a9 ^^^ d4
    let bc1 := t <<< 20 ||| t >>> (64 - 20)
    let a20 := bc0 ^^^ (bc2 &&& ~~~bc1)
    let a11 := bc1 ^^^ (bc3 &&& ~~~bc2)
    let a2 := bc2 ^^^ (bc4 &&& ~~~bc3)
    let a18 := bc3 ^^^ (bc0 &&& ~~~bc4)
    let a9 := bc4 ^^^ (bc1 &&& ~~~bc0)
    let t := a15 ^^^ d0
    let bc4 := t <<< 18 ||| t >>> (64 - 18)
    let t := a6 ^^^ d1
    let bc0 := t <<< 1 ||| t >>> (64 - 1)
    let t := a22 ^^^ d2
    let bc1 := t <<< 6 ||| t >>> (64 - 6)
    let t := a13 ^^^ d3
    let bc2 := t <<< 25 ||| t >>> (64 - 25)
    let t := a4 ^^^ d4
    let bc3 := t <<< 8 ||| t >>> (64 - 8)
    let a15 := bc0 ^^^ (bc2 &&& ~~~bc1)
    let a6 := bc1 ^^^ (bc3 &&& ~~~bc2)
    let a22 := bc2 ^^^ (bc4 &&& ~~~bc3)
    let a13 := bc3 ^^^ (bc0 &&& ~~~bc4)
    let a4 := bc4 ^^^ (bc1 &&& ~~~bc0)
    let t := a10 ^^^ d0
    let bc1 := t <<< 36 ||| t >>> (64 - 36)
    let t := a1 ^^^ d1
    let bc2 := t <<< 10 ||| t >>> (64 - 10)
    let t := a17 ^^^ d2
    let bc3 := t <<< 15 ||| t >>> (64 - 15)
    let t := a8 ^^^ d3
    let bc4 := t <<< 56 ||| t >>> (64 - 56)
    let t := a24 ^^^ d4
    let bc0 := t <<< 27 ||| t >>> (64 - 27)
    let a10 := bc0 ^^^ (bc2 &&& ~~~bc1)
    let a1 := bc1 ^^^ (bc3 &&& ~~~bc2)
    let a17 := bc2 ^^^ (bc4 &&& ~~~bc3)
    let a8 := bc3 ^^^ (bc0 &&& ~~~bc4)
    let a24 := bc4 ^^^ (bc1 &&& ~~~bc0)
    let t := a5 ^^^ d0
    let bc3 := t <<< 41 ||| t >>> (64 - 41)
    let t := a21 ^^^ d1
    let bc4 := t <<< 2 ||| t >>> (64 - 2)
    let t := a12 ^^^ d2
    let bc0 := t <<< 62 ||| t >>> (64 - 62)
    let t := a3 ^^^ d3
    let bc1 := t <<< 55 ||| t >>> (64 - 55)
    let t := a19 ^^^ d4
    let bc2 := t <<< 39 ||| t >>> (64 - 39)
    let a5 := bc0 ^^^ (bc2 &&& ~~~bc1)
    let a21 := bc1 ^^^ (bc3 &&& ~~~bc2)
    let a12 := bc2 ^^^ (bc4 &&& ~~~bc3)
    let a3 := bc3 ^^^ (bc0 &&& ~~~bc4)
    let a19 := bc4 ^^^ (bc1 &&& ~~~bc0)
    [a0, a1, a2, a3, a4, a5, a6, a7, a8, a9, a10, a11, a12, a13, a14, a15, a16, a17, a18, a19, a20, a21, a22, a23, a24]
  | s => s

/-- k12/keccakf.go:227-317 round 3 of the four; `c` is the round constant rc[i+2]; `t<<n | t>>(64-n)` as written. -/
def round3 (c : U64) : List U64 → List U64
  | [a0, a1, a2, a3, a4, a5, a6, a7, a8, a9, a10, a11, a12, a13, a14, a15, a16, a17, a18, a19, a20, a21, a22, a23, a24] =>
    let bc0 := a0 ^^^ a5 ^^^ a10 ^^^ a15 ^^^ a20
    let bc1 := a1 ^^^ a6 ^^^ a11 ^^^ a16 ^^^ a21
    let bc2 := a2 ^^^ a7 ^^^ a12 ^^^ a17 ^^^ a22
    let bc3 := a3 ^^^ a8 ^^^ a13 ^^^ a18 ^^^ a23
    let bc4 := a4 ^^^ a9 ^^^ a14 ^^^ a19 ^^^ a24
    let d0 := bc4 ^^^ (bc1 <<< 1 ||| bc1 >>> 63)
    let d1 := bc0 ^^^ (bc2 <<< 1 ||| bc2 >>> 63)
    let d2 := bc1 ^^^ (bc3 <<< 1 ||| bc3 >>> 63)
    let d3 := bc2 ^^^ (bc4 <<< 1 ||| bc4 >>> 63)
    let d4 := bc3 ^^^ (bc0 <<< 1 ||| bc0 >>> 63)
    let bc0 := a0 ^^^ d0
    let t := a11 ^^^ d1
    let bc1 := t <<< 44 ||| t >>> (64 - 44)
    let t := a22 ^^^ d2
    let bc2 := t <<< 43 ||| t >>> (64 - 43)
    let t := a8 ^^^ d3
    let bc3 := t <<< 21 ||| t >>> (64 - 21)
    let t := a19 ^^^ d4
    let bc4 := t <<< 14 ||| t >>> (64 - 14)
    let a0 := bc0 ^^^ (bc2 &&& ~~~bc1) ^^^ c
    let a11 := bc1 ^^^ (bc3 &&& ~~~bc2)
    let a22 := bc2 ^^^ (bc4 &&& ~~~bc3)
    let a8 := bc3 ^^^ (bc0 &&& ~~~bc4)
    let a19 := bc4 ^^^ (bc1 &&& ~~~bc0)
    let t := a15 ^^^ d0
    let bc2 := t <<< 3 ||| t >>> (64 - 3)
    let t := a1 ^^^ d1
    let bc3 := t <<< 45 ||| t >>> (64 - 45)
    let t := a12 ^^^ d2
    let bc4 := t <<< 61 ||| t >>> (64 - 61)
    let t := a23 ^^^ d3
    let bc0 := t <<< 28 ||| t >>> (64 - 28)
    let t := a9 ^^^ d4
    let bc1 := t <<< 20 ||| t >>> (64 - 20)
    let a15 := bc0 ^^^ (bc2 &&& ~~~bc1)
    let a1 := bc1 ^^^ (bc3 &&& ~~~bc2)
    let a12 := bc2 ^^^ (bc4 &&& ~~~bc3)
    let a23 := bc3 ^^^ (bc0 &&& ~~~bc4)
    let a9 := bc4 ^^^ (bc1 &&& ~~~bc0)
    let t := a5 ^^^ d0
    let bc4 := t <<< 18 ||| t >>> (64 - 18)
    let t := a16 ^^^ d1
    let bc0 := t <<< 1 ||| t >>> (64 - 1)
    let t := a2 ^^^ d2
    let bc1 := t <<< 6 ||| t >>> (64 - 6)
    let t := a13 ^^^ d3
    let bc2 := t <<< 25 ||| t >>> (64 - 25)
    let t := a24 ^^^ d4
    let bc3 := t <<< 8 ||| t >>> (64 - 8)
    let a5 := bc0 ^^^ (bc2 &&& ~~~bc1)
    let a16 := bc1 ^^^ (bc3 &&& ~~~bc2)
    let a2 := bc2 ^^^ (bc4 &&& ~~~bc3)
    let a13 := bc3 ^^^ (bc0 &&& ~~~bc4)
    let a24 := bc4 ^^^ (bc1 &&& ~~~bc0)
    let t := a20 ^^^ d0
    let bc1 := t <<< 36 ||| t >>> (64 - 36)
    let t := a6 ^^^ d1
    let bc2 := t <<< 10 ||| t >>> (64 - 10)
    let t := a17 ^^^ d2
    let bc3 := t <<< 15 ||| t >>> (64 - 15)
    let t := a3 ^^^ d3
    let bc4 := t <<< 56 ||| t >>> (64 - 56)
    let t := a14 ^^^ d4
    let bc0 := t <<< 27 ||| t >>> (64 - 27)
    let a20 := bc0 ^^^ (bc2 &&& ~~~bc1)
    let a6 := bc1 ^^^ (bc3 &&& ~~~bc2)
    let a17 := bc2 ^^^ (bc4 &&& ~~~bc3)
    let a3 := bc3 ^^^ (bc0 &&& ~~~bc4)
    let a14 := bc4 ^^^ (bc1 &&& ~~~bc0)
    let t := a10 ^^^ d0
    let bc3 := t <<< 41 ||| t >>> (64 - 41)
    let t := a21 ^^^ d1
    let bc4 := t <<< 2 ||| t >>> (64 - 2)
    let t := a7 ^^^ d2
    let bc0 := t <<< 62 ||| t >>> (64 - 62)
    let t := a18 ^^^ d3
    let bc1 := t <<< 55 ||| t >>> (64 - 55)
    let t := a4 ^^^ d4
    let bc2 := t <<< 39 ||| t >>> (64 - 39)
    let a10 := bc0 ^^^ (bc2 &&& ~~~bc1)
    let a21 := bc1 ^^^ (bc3 &&& ~~~bc2)
    let a7 := bc2 ^^^ (bc4 &&& ~~~bc3)
    let a18 := bc3 ^^^ (bc0 &&& ~~~bc4)
    let a4 := bc4 ^^^ (bc1 &&& ~~~bc0)
    [a0, a1, a2, a3, a4, a5, a6, a7, a8, a9, a10, a11, a12, a13, a14, a15, a16, a17, a18, a19, a20, a21, a22, a23, a24]
  | s => s

/-- k12/keccakf.go:318-408 round 4 of the four; `c` is the round constant rc[i+3]; `t<<n | t>>(64-n)` as written. -/
def round4 (c : U64) : List U64 → List U64
  | [a0, a1, a2, a3, a4, a5, a6, a7, a8, a9, a10, a11, a12, a13, a14, a15, a16, a17, a18, a19, a20, a21, a22, a23, a24] =>
    let bc0 := a0 ^^^ a5 ^^^ a10 ^^^ a15 ^^^ a20
    let bc1 := a1 ^^^ a6 ^^^ a11 ^^^ a16 ^^^ a21
    let bc2 := a2 ^^^ a7 ^^^ a12 ^^^ a17 ^^^ a22
    let bc3 := a3 ^^^ a8 ^^^ a13 ^^^ a18 ^^^ a23
    let bc4 := a4 ^^^ a9 ^^^ a14 ^^^ a19 ^^^ a24
    let d0 := bc4 ^^^ (bc1 <<< 1 ||| bc1 >>> 63)
    let d1 := bc0 ^^^ (bc2 <<< 1 ||| bc2 >>> 63)
    let d2 := bc1 ^^^ (bc3 <<< 1 ||| bc3 >>> 63)
    let d3 := bc2 ^^^ (bc4 <<< 1 ||| bc4 >>> 63)
    let d4 := bc3 ^^^ (bc0 <<< 1 ||| bc0 >>> 63)
    let bc0 := a0 ^^^ d0
    let t := a1 ^^^ d1
    let bc1 := t <<< 44 ||| t >>> (64 - 44)
    let t := a2 ^^^ d2
    let bc2 := t <<< 43 ||| t >>> (64 - 43)
    let t := a3 ^^^ d3
    let bc3 := t <<< 21 ||| t >>> (64 - 21)
    let t := a4 ^^^ d4
    let bc4 := t <<< 14 ||| t >>> (64 - 14)
    let a0 := bc0 ^^^ (bc2 &&& ~~~bc1) ^^^ c
    let a1 := bc1 ^^^ (bc3 &&& ~~~bc2)
    let a2 := bc2 ^^^ (bc4 &&& ~~~bc3)
    let a3 := bc3 ^^^ (bc0 &&& ~~~bc4)
    let a4 := bc4 ^^^ (bc1 &&& ~~~bc0)
    let t := a5 ^^^ d0
    let bc2 := t <<< 3 ||| t >>> (64 - 3)
    let t := a6 ^^^ d1
    let bc3 := t <<< 45 ||| t >>> (64 - 45)
    let t := a7 ^^^ d2
    let bc4 := t <<< 61 ||| t >>> (64 - 61)
    let t := a8 ^^^ d3
    let bc0 := t <<< 28 ||| t >>> (64 - 28)
    let t := a9 ^^^ d4
    let bc1 := t <<< 20 ||| t >>> (64 - 20)
    let a5 := bc0 ^^^ (bc2 &&& ~~~bc1)
    let a6 := bc1 ^^^ (bc3 &&& ~~~bc2)
    let a7 := bc2 ^^^ (bc4 &&& ~~~bc3)
    let a8 := bc3 ^^^ (bc0 &&& ~~~bc4)
    let a9 := bc4 ^^^ (bc1 &&& ~~~bc0)
    let t := a10 ^^^ d0
    let bc4 := t <<< 18 ||| t >>> (64 - 18)
    let t := a11 ^^^ d1
    let bc0 := t <<< 1 ||| t >>> (64 - 1)
    let t := a12 ^^^ d2
    let bc1 := t <<< 6 ||| t >>> (64 - 6)
    let t := a13 ^^^ d3
    let bc2 := t <<< 25 ||| t >>> (64 - 25)
    let t := a14 ^^^ d4
    let bc3 := t <<< 8 ||| t >>> (64 - 8)
    let a10 := bc0 ^^^ (bc2 &&& ~~~bc1)
    let a11 := bc1 ^^^ (bc3 &&& ~~~bc2)
    let a12 := bc2 ^^^ (bc4 &&& ~~~bc3)
    let a13 := bc3 ^^^ (bc0 &&& ~~~bc4)
    let a14 := bc4 ^^^ (bc1 &&& ~~~bc0)
    let t := a15 ^^^ d0
    let bc1 := t <<< 36 ||| t >>> (64 - 36)
    let t := a16 ^^^ d1
    let bc2 := t <<< 10 ||| t >>> (64 - 10)
    let t := a17 ^^^ d2
    let bc3 := t <<< 15 ||| t >>> (64 - 15)
    let t := a18 ^^^ d3
    let bc4 := t <<< 56 ||| t >>> (64 - 56)
    let t := a19 ^^^ d4
    let bc0 := t <<< 27 ||| t >>> (64 - 27)
    let a15 := bc0 ^^^ (bc2 &&& ~~~bc1)
    let a16 := bc1 ^^^ (bc3 &&& ~~~bc2)
    let a17 := bc2 ^^^ (bc4 &&& ~~~bc3)
    let a18 := bc3 ^^^ (bc0 &&& ~~~bc4)
    let a19 := bc4 ^^^ (bc1 &&& ~~~bc0)
    let t := a20 ^^^ d0
    let bc3 := t <<< 41 ||| t >>> (64 - 41)
    let t := a21 ^^^ d1
    let bc4 := t <<< 2 ||| t >>> (64 - 2)
    let t := a22 ^^^ d2
    let bc0 := t <<< 62 ||| t >>> (64 - 62)
    let t := a23 ^^^ d3
    let bc1 := t <<< 55 ||| t >>> (64 - 55)
    let t := a24 ^^^ d4
    let bc2 := t <<< 39 ||| t >>> (64 - 39)
    let a20 := bc0 ^^^ (bc2 &&& ~~~bc1)
    let a21 := bc1 ^^^ (bc3 &&& ~~~bc2)
    let a22 := bc2 ^^^ (bc4 &&& ~~~bc3)
    let a23 := bc3 ^^^ (bc0 &&& ~~~bc4)
    let a24 := bc4 ^^^ (bc1 &&& ~~~bc0)
    [a0, a1, a2, a3, a4, a5, a6, a7, a8, a9, a10, a11, a12, a13, a14, a15, a16, a17, a18, a19, a20, a21, a22, a23, a24]
  | s => s

/-- k12/keccakf.go:35-410 `keccakF1600` with `nr` rounds: the loop over i = 0, 4, …, 20, doing four rounds when i + nr ≥ 24. -/
def keccakF1600 (nr : Nat) (a : List U64) : List U64 :=
  forLoop 0 6 (fun a j => let i := 4 * j
    if i + nr ≥ 24 then round4 (rc.getD (i + 3) 0) (round3 (rc.getD (i + 2) 0) (round2 (rc.getD (i + 1) 0) (round1 (rc.getD i 0) a))) else a) a

end Verif.Keccak
