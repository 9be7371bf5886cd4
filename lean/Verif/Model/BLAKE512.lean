import Verif.BufferX
import Verif.Bits
/-
Model of package blake512: digest.go, utils.go, sbox.go, blake512.go.
-/
namespace Verif.BLAKE512

/-- blake512/sbox.go:3-20 -/
def sigma : List Nat :=
  [0, 1, 2, 3, 4, 5, 6, 7, 8, 9, 10, 11, 12, 13, 14, 15,
   14, 10, 4, 8, 9, 15, 13, 6, 1, 12, 0, 2, 11, 7, 5, 3,
   11, 8, 12, 0, 5, 2, 15, 13, 10, 14, 3, 6, 7, 1, 9, 4,
   7, 9, 3, 1, 13, 12, 11, 14, 2, 6, 5, 10, 4, 0, 15, 8,
   9, 0, 5, 7, 2, 4, 10, 15, 14, 1, 11, 12, 6, 8, 3, 13,
   2, 12, 6, 10, 0, 11, 8, 3, 4, 13, 7, 5, 15, 14, 1, 9,
   12, 5, 1, 15, 14, 13, 4, 10, 0, 7, 6, 3, 9, 2, 8, 11,
   13, 11, 7, 14, 12, 1, 3, 9, 5, 0, 15, 4, 8, 6, 2, 10,
   6, 15, 14, 9, 11, 3, 0, 8, 12, 2, 13, 7, 1, 4, 10, 5,
   10, 2, 8, 4, 7, 6, 1, 5, 15, 11, 9, 14, 3, 12, 13, 0,
   0, 1, 2, 3, 4, 5, 6, 7, 8, 9, 10, 11, 12, 13, 14, 15,
   14, 10, 4, 8, 9, 15, 13, 6, 1, 12, 0, 2, 11, 7, 5, 3,
   11, 8, 12, 0, 5, 2, 15, 13, 10, 14, 3, 6, 7, 1, 9, 4,
   7, 9, 3, 1, 13, 12, 11, 14, 2, 6, 5, 10, 4, 0, 15, 8,
   9, 0, 5, 7, 2, 4, 10, 15, 14, 1, 11, 12, 6, 8, 3, 13,
   2, 12, 6, 10, 0, 11, 8, 3, 4, 13, 7, 5, 15, 14, 1, 9]

/-- blake512/sbox.go:22-31 -/
def cb : List U64 :=
  [0x243F6A8885A308D3#64, 0x13198A2E03707344#64, 0xA4093822299F31D0#64, 0x082EFA98EC4E6C89#64,
   0x452821E638D01377#64, 0xBE5466CF34E90C6C#64, 0xC0AC29B7C97C50DD#64, 0x3F84D5B5B5470917#64,
   0x9216D5D98979FB1B#64, 0xD1310BA698DFB5AC#64, 0x2FFD72DBD01ADFB7#64, 0xB8E1AFED6A267E96#64,
   0xBA7C9045F12C7F99#64, 0x24A19947B3916CF7#64, 0x0801F2E2858EFC16#64, 0x636920D871574E69#64]
/-- blake512/sbox.go:33-38 -/
def iv384 : List U64 :=
  [0xCBBB9D5DC1059ED8#64, 0x629A292A367CD507#64, 0x9159015A3070DD17#64, 0x152FECD8F70E5939#64,
   0x67332667FFC00B31#64, 0x8EB44A8768581511#64, 0xDB0C2E0D64F98FA7#64, 0x47B5481DBEFA4FA4#64]
/-- blake512/sbox.go:40-45 -/
def iv512 : List U64 :=
  [0x6A09E667F3BCC908#64, 0xBB67AE8584CAA73B#64, 0x3C6EF372FE94F82B#64, 0xA54FF53A5F1D36F1#64,
   0x510E527FADE682D1#64, 0x9B05688C2B3E6C1F#64, 0x1F83D9ABFB41BD6B#64, 0x5BE0CD19137E2179#64]

/-- blake512/utils.go:63-65 `circularRight`: `bits.RotateLeft64(x, 64 - n)`. -/
def circularRight (x : U64) (n : Nat) : U64 := x.rotateLeft (64 - n)

/-- blake512/utils.go:49-61 `bytesToUint64s` -/
def bytesToUint64s (b : Bytes) : List U64 := (List.range (b.length / 8)).map fun i => getBE64 b (i * 8)

/-- The fields `s`, `h`, `t`, blake512/digest.go:14-25 (`x`, `nx`, `len` are those of `BufDigest`;
`hs` and `initVal` are parameters of `impl`). -/
structure State where
  s : List U64
  h : List U64
  t0 : U64
  t1 : U64

/-- The local variables `v0 .. vF`, blake512/digest.go:171-186. -/
structure V where
  (v0 v1 v2 v3 v4 v5 v6 v7 v8 v9 v10 v11 v12 v13 v14 v15 : U64)

/-- One iteration of the loop of blake512/digest.go:194-276. -/
def roundBody (m : List U64) (v : V) (r : Nat) : V :=
  let sg i := sigma.getD i 0
  let M i := m.getD i 0
  let C i := cb.getD i 0
  let v0 := v.v0
  let v1 := v.v1
  let v2 := v.v2
  let v3 := v.v3
  let v4 := v.v4
  let v5 := v.v5
  let v6 := v.v6
  let v7 := v.v7
  let v8 := v.v8
  let v9 := v.v9
  let v10 := v.v10
  let v11 := v.v11
  let v12 := v.v12
  let v13 := v.v13
  let v14 := v.v14
  let v15 := v.v15
  let o0 := sg (16 * r + 0)
  let o1 := sg (16 * r + 1)
  let v0 := v0 + (v4 + (M o0 ^^^ C o1))
  let v12 := circularRight (v12 ^^^ v0) 32
  let v8 := v8 + v12
  let v4 := circularRight (v4 ^^^ v8) 25
  let v0 := v0 + (v4 + (M o1 ^^^ C o0))
  let v12 := circularRight (v12 ^^^ v0) 16
  let v8 := v8 + v12
  let v4 := circularRight (v4 ^^^ v8) 11
  let o0 := sg (16 * r + 2)
  let o1 := sg (16 * r + 3)
  let v1 := v1 + (v5 + (M o0 ^^^ C o1))
  let v13 := circularRight (v13 ^^^ v1) 32
  let v9 := v9 + v13
  let v5 := circularRight (v5 ^^^ v9) 25
  let v1 := v1 + (v5 + (M o1 ^^^ C o0))
  let v13 := circularRight (v13 ^^^ v1) 16
  let v9 := v9 + v13
  let v5 := circularRight (v5 ^^^ v9) 11
  let o0 := sg (16 * r + 4)
  let o1 := sg (16 * r + 5)
  let v2 := v2 + (v6 + (M o0 ^^^ C o1))
  let v14 := circularRight (v14 ^^^ v2) 32
  let v10 := v10 + v14
  let v6 := circularRight (v6 ^^^ v10) 25
  let v2 := v2 + (v6 + (M o1 ^^^ C o0))
  let v14 := circularRight (v14 ^^^ v2) 16
  let v10 := v10 + v14
  let v6 := circularRight (v6 ^^^ v10) 11
  let o0 := sg (16 * r + 6)
  let o1 := sg (16 * r + 7)
  let v3 := v3 + (v7 + (M o0 ^^^ C o1))
  let v15 := circularRight (v15 ^^^ v3) 32
  let v11 := v11 + v15
  let v7 := circularRight (v7 ^^^ v11) 25
  let v3 := v3 + (v7 + (M o1 ^^^ C o0))
  let v15 := circularRight (v15 ^^^ v3) 16
  let v11 := v11 + v15
  let v7 := circularRight (v7 ^^^ v11) 11
  let o0 := sg (16 * r + 8)
  let o1 := sg (16 * r + 9)
  let v0 := v0 + (v5 + (M o0 ^^^ C o1))
  let v15 := circularRight (v15 ^^^ v0) 32
  let v10 := v10 + v15
  let v5 := circularRight (v5 ^^^ v10) 25
  let v0 := v0 + (v5 + (M o1 ^^^ C o0))
  let v15 := circularRight (v15 ^^^ v0) 16
  let v10 := v10 + v15
  let v5 := circularRight (v5 ^^^ v10) 11
  let o0 := sg (16 * r + 10)
  let o1 := sg (16 * r + 11)
  let v1 := v1 + (v6 + (M o0 ^^^ C o1))
  let v12 := circularRight (v12 ^^^ v1) 32
  let v11 := v11 + v12
  let v6 := circularRight (v6 ^^^ v11) 25
  let v1 := v1 + (v6 + (M o1 ^^^ C o0))
  let v12 := circularRight (v12 ^^^ v1) 16
  let v11 := v11 + v12
  let v6 := circularRight (v6 ^^^ v11) 11
  let o0 := sg (16 * r + 12)
  let o1 := sg (16 * r + 13)
  let v2 := v2 + (v7 + (M o0 ^^^ C o1))
  let v13 := circularRight (v13 ^^^ v2) 32
  let v8 := v8 + v13
  let v7 := circularRight (v7 ^^^ v8) 25
  let v2 := v2 + (v7 + (M o1 ^^^ C o0))
  let v13 := circularRight (v13 ^^^ v2) 16
  let v8 := v8 + v13
  let v7 := circularRight (v7 ^^^ v8) 11
  let o0 := sg (16 * r + 14)
  let o1 := sg (16 * r + 15)
  let v3 := v3 + (v4 + (M o0 ^^^ C o1))
  let v14 := circularRight (v14 ^^^ v3) 32
  let v9 := v9 + v14
  let v4 := circularRight (v4 ^^^ v9) 25
  let v3 := v3 + (v4 + (M o1 ^^^ C o0))
  let v14 := circularRight (v14 ^^^ v3) 16
  let v9 := v9 + v14
  let v4 := circularRight (v4 ^^^ v9) 11
  ⟨v0, v1, v2, v3, v4, v5, v6, v7, v8, v9, v10, v11, v12, v13, v14, v15⟩

/-- blake512/digest.go:165-169: the counter update at the start of `compress`. -/
def tick (t0 t1 : U64) : U64 × U64 :=
  let t0 := t0 + 1024#64
  if t0 &&& ~~~0x3FF#64 = 0#64 then (t0, t1 + 1#64) else (t0, t1)

/-- blake512/digest.go:164-286 `compress` -/
def compress (d : State) (data : Bytes) : State :=
  let t := tick d.t0 d.t1
  let h i := d.h.getD i 0
  let s i := d.s.getD i 0
  let m := (List.range 16).map fun i => getBE64 data (8 * i)
  let v := forLoop 0 16 (roundBody m)
    ⟨h 0, h 1, h 2, h 3, h 4, h 5, h 6, h 7,
     s 0 ^^^ 0x243F6A8885A308D3#64, s 1 ^^^ 0x13198A2E03707344#64,
     s 2 ^^^ 0xA4093822299F31D0#64, s 3 ^^^ 0x082EFA98EC4E6C89#64,
     t.1 ^^^ 0x452821E638D01377#64, t.1 ^^^ 0xBE5466CF34E90C6C#64,
     t.2 ^^^ 0xC0AC29B7C97C50DD#64, t.2 ^^^ 0x3F84D5B5B5470917#64⟩
  ⟨d.s, [h 0 ^^^ (s 0 ^^^ v.v0 ^^^ v.v8), h 1 ^^^ (s 1 ^^^ v.v1 ^^^ v.v9),
    h 2 ^^^ (s 2 ^^^ v.v2 ^^^ v.v10), h 3 ^^^ (s 3 ^^^ v.v3 ^^^ v.v11),
    h 4 ^^^ (s 0 ^^^ v.v4 ^^^ v.v12), h 5 ^^^ (s 1 ^^^ v.v5 ^^^ v.v13),
    h 6 ^^^ (s 2 ^^^ v.v6 ^^^ v.v14), h 7 ^^^ (s 3 ^^^ v.v7 ^^^ v.v15)], t.1, t.2⟩

/-- blake512/digest.go:14-25 -/
abbrev Digest := BufDigest State

/-- blake512/digest.go:37-45 `Reset`: the salt is zeroed (although the comment says it stays). -/
def reset (iv : List U64) (_ : Digest) : Digest :=
  { s := ⟨[0, 0, 0, 0], iv, 0, 0⟩, x := zeros 128, nx := 0, len := 0 }
/-- blake512/digest.go:27-34 `newDigest` -/
def new (iv : List U64) : Digest := reset iv { s := ⟨[], [], 0, 0⟩, x := [], nx := 0, len := 0 }
/-- blake512/digest.go:288-295 `setSalt` and blake512/blake512.go:11-15, 35-39 `NewWithSalt`;
`none` is the panic on a salt that is not 32 bytes long. -/
def newWithSalt (iv : List U64) (salt : Bytes) : Option Digest :=
  if salt.length ≠ 32 then none
  else
    let d := new iv
    some { d with s := { d.s with s := goCopy d.s.s 0 (bytesToUint64s salt) } }

/-- blake512/digest.go:55-78 `Write` -/
def write (d : Digest) (p : Bytes) : Digest := d.absorb 128 compress p

/-- `d.t[0], d.t[1] = ..` -/
def setT (d : Digest) (t0 t1 : U64) : Digest := { d with s := { d.s with t0 := t0, t1 := t1 } }

/-- blake512/digest.go:100-108: the counter before the first padding block. -/
def preT (ptr : Nat) (bitLen t0 t1 : U64) : U64 × U64 :=
  if ptr = 0 then (0xFFFFFFFFFFFFFC00#64, 0xFFFFFFFFFFFFFFFF#64)
  else if t0 = 0#64 then (0xFFFFFFFFFFFFFC00#64 + bitLen, t1 - 1#64)
  else (t0 - (1024#64 - bitLen), t1)

/-- blake512/digest.go:97-99, 111-117: the first 112 bytes of `tmpBuf` in the one-block case. -/
def tmpOne (hs ptr : Nat) : Bytes :=
  let b := (zeros 128).set ptr 0x80#8
  let b := forLoop (ptr + 1) 112 (fun (b : Bytes) i => b.set i 0#8) b
  if hs = 64 then b.set 111 (at8 b 111 ||| 0x01#8) else b

/-- blake512/digest.go:97-99, 124-126: `tmpBuf` for the first block in the two-block case. -/
def tmpTwo (ptr : Nat) : Bytes :=
  let b := (zeros 128).set ptr 0x80#8
  forLoop (ptr + 1) 128 (fun (b : Bytes) i => b.set i 0#8) b

/-- blake512/digest.go:133-139: `tmpBuf` for the second block, before the length. -/
def tmpSnd (hs : Nat) (b : Bytes) : Bytes :=
  let b := forLoop 0 112 (fun (b : Bytes) i => b.set i 0#8) b
  if hs = 64 then b.set 111 0x01#8 else b

/-- blake512/digest.go:119-120, 141-142: the length into `tmpBuf`. -/
def putLen (b : Bytes) (th tl : U64) : Bytes := goCopy (goCopy b 112 (be64 th)) 120 (be64 tl)

/-- blake512/digest.go:90-162 `checkSum` -/
def checkSum (hs : Nat) (d : Digest) : Bytes :=
  let ptr := d.nx
  let bitLen : U64 := BitVec.ofNat 64 ptr <<< 3
  let th := d.s.t1
  let tl := d.s.t0 + bitLen
  let t := preT ptr bitLen d.s.t0 d.s.t1
  let d := setT d t.1 t.2
  let d :=
    if ptr < 112 then write d ((putLen (tmpOne hs ptr) th tl).drop ptr)
    else
      let b := tmpTwo ptr
      let d := write d (b.drop ptr)
      let d := setT d 0xFFFFFFFFFFFFFC00#64 0xFFFFFFFFFFFFFFFF#64
      write d (putLen (tmpSnd hs b) th tl)
  let h i := d.s.h.getD i 0
  let out := be64 (h 0) ++ be64 (h 1) ++ be64 (h 2) ++ be64 (h 3) ++ be64 (h 4) ++ be64 (h 5)
  if hs = 64 then out ++ be64 (h 6) ++ be64 (h 7) else out

/-- The methods of `newDigest(hs, iv)`; `Sum` works on a copy.  `checkSum` returns `hs` bytes for
the two values of `hs` in use, 64 and 48. -/
def impl (hs : Nat) (iv : List U64) : HashImpl Digest where
  write d p := some (write d p, p.length)
  sum d b := some (d, b ++ checkSum hs d)
  reset := reset iv
  size _ := hs
  blockSize _ := 128

end Verif.BLAKE512
