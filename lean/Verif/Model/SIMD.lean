import Verif.Model.SIMDTab
import Verif.LoopBuf
/-
Package simd (simd/digest256.go, simd/digest512.go, simd/utils.go, simd/simd.go).  The two types differ in the number of lanes (4 or 8), the tables and
the sequence of transforms; they are modelled once, with these as parameters.  Loops that are unrolled in the source are written as loops (the
generator tools/gen_simd.py checks the unrolled statements against the loops, index by index).  An int32 is a BitVec 32 with the signed
operations.
-/
namespace Verif.SIMD

abbrev I32 := BitVec 32

/-- simd/utils.go:54-56 -/
def REDS1 (x : I32) : I32 := (x &&& 0xFF#32) - x.sshiftRight 8
/-- simd/utils.go:58-60; the same expression is written out in the transforms. -/
def REDS2 (x : I32) : I32 := (x &&& 0xFFFF#32) + x.sshiftRight 16

/-- One of the blocks that make d1_0 ... d1_7 resp. d2_0 ... d2_7 (simd/digest256.go:688-711, 712-735; simd/digest512.go:708-757). -/
def half (x0 x1 x2 x3 : I32) : List I32 :=
  let a0 := x0 + x2
  let a1 := x0 + (x2 <<< 4)
  let a2 := x0 - x2
  let a3 := x0 - (x2 <<< 4)
  let b0 := x1 + x3
  let b1 := REDS1 ((x1 <<< 2) + (x3 <<< 6))
  let b2 := (x1 <<< 4) - (x3 <<< 4)
  let b3 := REDS1 ((x1 <<< 6) + (x3 <<< 2))
  [a0 + b0, a1 + b1, a2 + b2, a3 + b3, a0 - b0, a1 - b1, a2 - b2, a3 - b3]

/-- int32(x[i] & 0xFF) -/
def xi (x : Bytes) (i : Nat) : I32 := (at8 x i).setWidth 32

/-- The 16 values stored in q[qoff ...] (simd/digest256.go:685-753, 754-822; simd/digest512.go:705-775, ...): the bytes are at xb, xb + u, xb + 2 u, ... -/
def fft16 (x : Bytes) (xb u : Nat) : List I32 :=
  let d1 := half (xi x xb) (xi x (xb + 2 * u)) (xi x (xb + 4 * u)) (xi x (xb + 6 * u))
  let d2 := half (xi x (xb + u)) (xi x (xb + 3 * u)) (xi x (xb + 5 * u)) (xi x (xb + 7 * u))
  (List.range 16).map fun k => if k < 8 then d1.getD k 0 + (d2.getD k 0 <<< k) else d1.getD (k - 8) 0 - (d2.getD (k - 8) 0 <<< (k - 8))

/-- The butterflies on q[o], ..., q[o + 2 h - 1] with every st-th entry of the table (simd/digest256.go:135-166, 824-848 and so on). -/
def fftLoop (tab : List U32) (q : List I32) (o h st : Nat) : List I32 :=
  let m := q.getD o 0
  let n := q.getD (o + h) 0
  let q := (q.set o (m + n)).set (o + h) (m - n)
  forLoop 1 h (fun q i =>
    let m := q.getD (o + i) 0
    let n := q.getD (o + i + h) 0
    let t := REDS2 (n * tab.getD (st * i) 0)
    (q.set (o + i) (m + t)).set (o + i + h) (m - t)) q

/-- q[o ...] = l -/
def put (q : List I32) (o : Nat) (l : List I32) : List I32 := goCopy q o l

/-- simd/digest256.go:681-849 -/
def fft32 (x : Bytes) (q : List I32) (xb xs o : Nat) : List I32 :=
  let xd := 2 * xs
  let q := put q o (fft16 x xb xd)
  let q := put q (o + 16) (fft16 x (xb + xs) xd)
  fftLoop alphaTab256 q o 16 8

/-- simd/digest512.go:701-1057 -/
def fft64 (x : Bytes) (q : List I32) (xb xs o : Nat) : List I32 :=
  let xd := 2 * xs
  let q := put q o (fft16 x xb (2 * xd))
  let q := put q (o + 16) (fft16 x (xb + xd) (2 * xd))
  let q := fftLoop alphaTab512 q o 16 8
  let q := put q (o + 32) (fft16 x (xb + xs) (2 * xd))
  let q := put q (o + 48) (fft16 x (xb + xs + xd) (2 * xd))
  let q := fftLoop alphaTab512 q (o + 32) 16 8
  fftLoop alphaTab512 q o 32 4

/-- The transform of a block: simd/digest256.go:132-227.  (The array q is written before it is read; it starts as zeros here.) -/
def ntt256 (x : Bytes) : List I32 :=
  let q := List.replicate 128 0
  let q := fft32 x q 0 4 0
  let q := fft32 x q 2 4 32
  let q := fftLoop alphaTab256 q 0 32 4
  let q := fft32 x q 1 4 64
  let q := fft32 x q 3 4 96
  let q := fftLoop alphaTab256 q 64 32 4
  fftLoop alphaTab256 q 0 64 2

/-- simd/digest512.go:135-232 -/
def ntt512 (x : Bytes) : List I32 :=
  let q := List.replicate 256 0
  let q := fft64 x q 0 4 0
  let q := fft64 x q 2 4 64
  let q := fftLoop alphaTab512 q 0 64 2
  let q := fft64 x q 1 4 128
  let q := fft64 x q 3 4 192
  let q := fftLoop alphaTab512 q 128 64 2
  fftLoop alphaTab512 q 0 128 1

/-- simd/digest256.go:229-258, simd/digest512.go:234-263 -/
def reduce (t : I32) : I32 :=
  let t := REDS2 t
  let t := REDS1 t
  let t := REDS1 t
  if t.sle 128#32 then t else t - 257#32

/-- (uint32(l * mm) & 0xFFFF) + (uint32(h * mm) << 16), simd/utils.go:62-64; written out in compress. -/
def INNER (l h mm : I32) : U32 := ((l * mm) &&& 0xFFFF#32) + ((h * mm) <<< 16)

structure Cfg where
  /-- lanes -/
  n : Nat
  ntt : Bytes → List I32
  yoffN : List U32
  yoffF : List U32
  wp : List Nat
  pp : List Nat
  /-- first argument of oneRound in the four rounds -/
  isp : List Nat
  /-- the t in state[i] = ... + tA[t] of the last four steps -/
  fin : List (List Nat)

def cfg256 : Cfg := ⟨4, ntt256, yoffN256, yoffF256, wsp256, pp4k256, [0, 2, 1, 0], [[3, 2, 1, 0], [1, 0, 3, 2], [2, 3, 0, 1], [3, 2, 1, 0]]⟩
def cfg512 : Cfg := ⟨8, ntt512, yoffN512, yoffF512, wbp512, pp8k512, [0, 1, 2, 3],
  [[5, 4, 7, 6, 1, 0, 3, 2], [7, 6, 5, 4, 3, 2, 1, 0], [4, 5, 6, 7, 0, 1, 2, 3], [1, 0, 3, 2, 5, 4, 7, 6]]⟩

/-- simd/digest256.go:445-475 (first step), simd/digest512.go:580-594: one step; `ti i` is the index in tA, φ the boolean function. -/
def step (n : Nat) (φ : U32 → U32 → U32 → U32) (ti : Nat → Nat) (r s : Nat) (w : Nat → U32) (st : List U32) : List U32 :=
  let tA := (List.range n).map fun i => (st.getD i 0).rotateLeft r
  forLoop 0 n (fun st i =>
    let tmp := st.getD (3 * n + i) 0 + w i + φ (st.getD i 0) (st.getD (n + i) 0) (st.getD (2 * n + i) 0)
    let st := st.set i (tmp.rotateLeft s + tA.getD (ti i) 0)
    let st := st.set (3 * n + i) (st.getD (2 * n + i) 0)
    let st := st.set (2 * n + i) (st.getD (n + i) 0)
    st.set (n + i) (tA.getD i 0)) st

/-- ((b ^ c) & a) ^ c -/
def fIF (a b c : U32) : U32 := ((b ^^^ c) &&& a) ^^^ c
/-- (a & b) | ((a | b) & c) -/
def fMAJ (a b c : U32) : U32 := (a &&& b) ||| ((a ||| b) &&& c)

/-- simd/digest256.go:441-679, simd/digest512.go:573-699 -/
def oneRound (c : Cfg) (w : List U32) (isp p0 p1 p2 p3 : Nat) (st : List U32) : List U32 :=
  let ti := fun k i => c.pp.getD (isp + k) 0 ^^^ i
  let wk := fun k i => w.getD (c.n * k + i) 0
  let st := step c.n fIF (ti 0) p0 p1 (wk 0) st
  let st := step c.n fIF (ti 1) p1 p2 (wk 1) st
  let st := step c.n fIF (ti 2) p2 p3 (wk 2) st
  let st := step c.n fIF (ti 3) p3 p0 (wk 3) st
  let st := step c.n fMAJ (ti 4) p0 p1 (wk 4) st
  let st := step c.n fMAJ (ti 5) p1 p2 (wk 5) st
  let st := step c.n fMAJ (ti 6) p2 p3 (wk 6) st
  step c.n fMAJ (ti 7) p3 p0 (wk 7) st

/-- The loop `for u := 0; u < 8 n; u += n` that makes w (simd/digest256.go:269-275 and so on): offsets a and b, given as (plus, minus). -/
def words (c : Cfg) (q : List I32) (wo : Nat) (ap am bp bm : Nat) (mm : I32) : List U32 :=
  (List.range (8 * c.n)).map fun u =>
    let v := c.wp.getD (u / c.n + wo) 0
    let k := u % c.n
    INNER (q.getD (v + 2 * k + ap - am) 0) (q.getD (v + 2 * k + bp - bm) 0) mm

/-- simd/digest256.go:126-439, simd/digest512.go:128-571 -/
def compress (c : Cfg) (state : List U32) (x : Bytes) (last : Bool) : List U32 :=
  let n := c.n
  let q := c.ntt x
  let q := (List.range (32 * n)).map fun i => reduce (q.getD i 0 + (if last then c.yoffF else c.yoffN).getD i 0)
  let tmpState := state
  let st := (List.range (4 * n)).map fun i => state.getD i 0 ^^^ getLE32 (x.drop (4 * i))
  let st := oneRound c (words c q 0 0 0 1 0 185#32) (c.isp.getD 0 0) 3 23 17 27 st
  let st := oneRound c (words c q 8 0 0 1 0 185#32) (c.isp.getD 1 0) 28 19 22 7 st
  let st := oneRound c (words c q 16 0 (32 * n) 0 (16 * n) 233#32) (c.isp.getD 2 0) 29 9 15 5 st
  let st := oneRound c (words c q 24 1 (48 * n) 1 (32 * n) 233#32) (c.isp.getD 3 0) 4 13 10 25 st
  let fi := fun k i => (c.fin.getD k []).getD i 0
  let tw := fun k i => tmpState.getD (n * k + i) 0
  let st := step n fIF (fi 0) 4 13 (tw 0) st
  let st := step n fIF (fi 1) 13 10 (tw 1) st
  let st := step n fIF (fi 2) 10 25 (tw 2) st
  step n fIF (fi 3) 25 4 (tw 3) st

/-- simd/digest256.go:12-26, simd/digest512.go:12-26.  The fields s (never read), q, w, tmpState and tA (written before they are read) are left out. -/
structure Digest where
  x : Bytes
  nx : Nat
  len : U64
  state : List U32
  hs : Nat
  initVal : List U32

/-- simd/digest256.go:38-50, simd/digest512.go:38-50 -/
def reset (c : Cfg) (d : Digest) : Digest := { d with x := zeros (16 * c.n), nx := 0, len := 0, state := d.initVal }
/-- simd/digest256.go:29-36, simd/digest512.go:29-36 -/
def newDigest (c : Cfg) (hs : Nat) (iv : List U32) : Digest := reset c ⟨[], 0, 0, [], hs, iv⟩

/-- simd/digest256.go:60-82, simd/digest512.go:60-82 -/
def write (c : Cfg) (d : Digest) (p : Bytes) : Digest × Nat :=
  let r := loopWrite (16 * c.n) (fun s x _ => compress c s x false) (fun s _ => s) (p.length + 1) d.state d.x d.nx p
  ({ d with len := d.len + BitVec.ofNat 64 p.length, state := r.1, x := r.2.1, nx := r.2.2 }, p.length)

/-- simd/digest256.go:91-120, simd/digest512.go:91-122 -/
def checkSum (c : Cfg) (d : Digest) : Bytes :=
  let B := 16 * c.n
  let ptr := d.nx
  let buf := if ptr ≠ 0 then goCopy d.x ptr (zeros (B - ptr)) else d.x
  let state := if ptr ≠ 0 then compress c d.state buf false else d.state
  let count := ((d.len / BitVec.ofNat 64 B) <<< (if c.n = 4 then 9 else 10)) + ((BitVec.ofNat 64 ptr) <<< 3)
  let buf := goCopy buf 0 (le32 (count.setWidth 32))
  let buf := goCopy buf 4 (le32 ((count >>> 32).setWidth 32))
  let buf := goCopy buf 8 (zeros (B - 8))
  let state := compress c state buf true
  let n := d.hs >>> 2
  forLoop 0 n (fun out i => goCopy out (i <<< 2) (le32 (state.getD i 0))) (zeros d.hs)

/-- The methods; Sum (simd/digest256.go:84-89, simd/digest512.go:84-89) works on a copy. -/
def impl (c : Cfg) : HashImpl Digest where
  write d p := some (write c d p)
  sum d b := some (d, b ++ checkSum c d)
  reset d := reset c d
  size d := d.hs
  blockSize _ := 16 * c.n

/-- simd/simd.go:8-10 -/
def new224 : Digest := newDigest cfg256 28 iv224
/-- simd/simd.go:13-15 -/
def new256 : Digest := newDigest cfg256 32 iv256
/-- simd/simd.go:40-42 -/
def new384 : Digest := newDigest cfg512 48 iv384
/-- simd/simd.go:45-47 -/
def new512 : Digest := newDigest cfg512 64 iv512

/-- simd/simd.go:18-36, 50-67 -/
def sumOf (c : Cfg) (d : Digest) (size : Nat) (data : Bytes) : Bytes := goCopy (zeros size) 0 (checkSum c (write c d data).1)

end Verif.SIMD
