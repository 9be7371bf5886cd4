import Verif.Basic
/-
lyra2re/lyra2re.go and lyra2re2/lyra2re.go: the same code but for one constant (`stride`, line 414 of the first and 417 of the second).
Line numbers are those of lyra2re.
-/
namespace Verif.Lyra2

/-- lyra2re.go:15-20 -/
def blake2bIV : List U64 :=
  [0x6a09e667f3bcc908#64, 0xbb67ae8584caa73b#64, 0x3c6ef372fe94f82b#64, 0xa54ff53a5f1d36f1#64,
   0x510e527fade682d1#64, 0x9b05688c2b3e6c1f#64, 0x1f83d9abfb41bd6b#64, 0x5be0cd19137e2179#64]
/-- lyra2re.go:23-25 -/
def rotr64 (w : U64) (c : Nat) : U64 := (w >>> c) ||| (w <<< (64 - c))
/-- lyra2re.go:28-38 -/
def g (a b c d : U64) : U64 × U64 × U64 × U64 :=
  let a := a + b
  let d := rotr64 (d ^^^ a) 32
  let c := c + d
  let b := rotr64 (b ^^^ c) 24
  let a := a + b
  let d := rotr64 (d ^^^ a) 16
  let c := c + d
  let b := rotr64 (b ^^^ c) 63
  (a, b, c, d)
/-- `v[i], v[j], v[k], v[l] = g(v[i], v[j], v[k], v[l])` -/
def gAt (v : List U64) (i j k l : Nat) : List U64 :=
  let r := g (v.getD i 0#64) (v.getD j 0#64) (v.getD k 0#64) (v.getD l 0#64)
  (((v.set i r.1).set j r.2.1).set k r.2.2.1).set l r.2.2.2
/-- lyra2re.go:41-50 -/
def roundLyra (v : List U64) : List U64 :=
  let v := gAt v 0 4 8 12
  let v := gAt v 1 5 9 13
  let v := gAt v 2 6 10 14
  let v := gAt v 3 7 11 15
  let v := gAt v 0 5 10 15
  let v := gAt v 1 6 11 12
  let v := gAt v 2 7 8 13
  gAt v 3 4 9 14
/-- lyra2re.go:67-74 `newLyra2RE` -/
def newState : List U64 := goCopy (List.replicate 16 0#64) 8 blake2bIV
/-- lyra2re.go:81-85 -/
def blake2bLyra (v : List U64) : List U64 := forLoop 0 12 (fun v _ => roundLyra v) v
/-- lyra2re.go:91-93 -/
def reducedBlake2bLyra (v : List U64) : List U64 := roundLyra v
/-- lyra2re.go:101-112; returns `out` -/
def squeeze (state : List U64) (out : Bytes) : Bytes :=
  (forLoop 0 (out.length / 96 + 1) (fun (st : List U64 × Bytes) j =>
    let tmp := forLoop 0 12 (fun tmp i => goCopy tmp (i * 8) (le64 (st.1.getD i 0#64))) (zeros 96)
    (blake2bLyra st.1, goCopy st.2 (j * 96) tmp)) (state, out)).2

/-- `for i := 0; i < n; i++ { state[i] ^= in[i] }` -/
def xorIn (n : Nat) (state : List U64) (inp : Nat → U64) : List U64 :=
  forLoop 0 n (fun s i => s.set i (s.getD i 0#64 ^^^ inp i)) state
/-- lyra2re.go:120-127; `m` is the whole matrix and `o` the offset of `in` -/
def absorbBlock (state m : List U64) (o : Nat) : List U64 := blake2bLyra (xorIn 12 state fun j => m.getD (o + j) 0#64)
/-- lyra2re.go:135-142 -/
def absorbBlockBlake2Safe (state m : List U64) (o : Nat) : List U64 := blake2bLyra (xorIn 8 state fun j => m.getD (o + j) 0#64)

/-- State of the sponge and the whole matrix; rows are given by their offsets in it. -/
structure Mem where
  (state m : List U64)

/-- lyra2re.go:152-170; the pointer is `(nCols - 1 - i) * 12` in round `i` -/
def reducedSqueezeRow0 (x : Mem) (rowOut nCols : Nat) : Mem :=
  forLoop 0 nCols (fun x i =>
    let o := rowOut + (nCols - 1 - i) * 12
    ⟨reducedBlake2bLyra x.state, forLoop 0 12 (fun m j => m.set (o + j) (x.state.getD j 0#64)) x.m⟩) x
/-- lyra2re.go:181-214 -/
def reducedDuplexRow1 (x : Mem) (rowIn rowOut nCols : Nat) : Mem :=
  forLoop 0 nCols (fun x i =>
    let pin := rowIn + i * 12
    let o := rowOut + (nCols - 1 - i) * 12
    let state := reducedBlake2bLyra (xorIn 12 x.state fun j => x.m.getD (pin + j) 0#64)
    ⟨state, forLoop 0 12 (fun m j => m.set (o + j) (m.getD (pin + j) 0#64 ^^^ state.getD j 0#64)) x.m⟩) x
/-- `append(this.state[11:12], this.state[:11]...)`: 12 words do not fit in the capacity of 5, so this is a new array -/
def rotated (state : List U64) : List U64 := (state.drop 11).take 1 ++ state.take 11
/-- lyra2re.go:229-272 -/
def reducedDuplexRowSetup (x : Mem) (rowIn rowInOut rowOut nCols : Nat) : Mem :=
  forLoop 0 nCols (fun x i =>
    let pin := rowIn + i * 12
    let pio := rowInOut + i * 12
    let o := rowOut + (nCols - 1 - i) * 12
    let state := reducedBlake2bLyra (xorIn 12 x.state fun j => x.m.getD (pin + j) 0#64 + x.m.getD (pio + j) 0#64)
    let m := forLoop 0 12 (fun m j => m.set (o + j) (m.getD (pin + j) 0#64 ^^^ state.getD j 0#64)) x.m
    let ns := rotated state
    ⟨state, forLoop 0 12 (fun m j => m.set (pio + j) (m.getD (pio + j) 0#64 ^^^ ns.getD j 0#64)) m⟩) x
/-- lyra2re.go:287-326 -/
def reducedDuplexRow (x : Mem) (rowIn rowInOut rowOut nCols : Nat) : Mem :=
  forLoop 0 nCols (fun x i =>
    let pin := rowIn + i * 12
    let pio := rowInOut + i * 12
    let o := rowOut + i * 12
    let state := reducedBlake2bLyra (xorIn 12 x.state fun j => x.m.getD (pin + j) 0#64 + x.m.getD (pio + j) 0#64)
    let m := forLoop 0 12 (fun m j => m.set (o + j) (m.getD (o + j) 0#64 ^^^ state.getD j 0#64)) x.m
    let ns := rotated state
    ⟨state, forLoop 0 12 (fun m j => m.set (pio + j) (m.getD (pio + j) 0#64 ^^^ ns.getD j 0#64)) m⟩) x

/-- The setup loop's variables, lyra2re.go:350-356 -/
structure Setup where
  (x : Mem) (row prev : Nat) (rowa step window gap : U64)

/-- lyra2re.go:423-440, the loop `for row < nRows`; `none` is an index out of range. `step` is an `int` and is only used as `uint64(step)`. -/
def setupLoop (nRows nCols : Nat) : Nat → Setup → Option Setup
  | 0, t => some t
  | fuel + 1, t =>
    if t.row < nRows then
      if t.prev < nRows ∧ t.rowa.toNat < nRows then
        let x := reducedDuplexRowSetup t.x (t.prev * (12 * nCols)) (t.rowa.toNat * (12 * nCols)) (t.row * (12 * nCols)) nCols
        let rowa := (t.rowa + t.step) &&& (t.window - 1#64)
        let u : Setup := { t with x := x, rowa := rowa, prev := t.row, row := t.row + 1 }
        setupLoop nRows nCols fuel (if rowa = 0#64 then { u with step := t.window + t.gap, window := t.window * 2#64, gap := 0#64 - t.gap } else u)
      else none
    else some t

/-- The variables of the wandering phase; `row` is an `int`. -/
structure Wander where
  (x : Mem) (row : Int) (prev : Nat) (rowa : U64)

/-- lyra2re.go:450-465, the loop `for row0 := false; !row0; row0 = (row == 0)`; `none` is an index out of range -/
def wanderLoop (nRows nCols : Nat) (step : Int) : Nat → Wander → Option Wander
  | 0, t => some t
  | fuel + 1, t =>
    let rowa := t.x.state.getD 0 0#64 % BitVec.ofNat 64 nRows
    if t.prev < nRows ∧ rowa.toNat < nRows ∧ 0 ≤ t.row ∧ t.row < nRows then
      let x := reducedDuplexRow t.x (t.prev * (12 * nCols)) (rowa.toNat * (12 * nCols)) (t.row.toNat * (12 * nCols)) nCols
      let row := (t.row + step).tmod nRows
      let u : Wander := ⟨x, row, t.row.toNat, rowa⟩
      if row = 0 then some u else wanderLoop nRows nCols step fuel u
    else none

/-- lyra2re.go:443-466, the loop over `tau = 1, ..., timeCost` -/
def timeLoop (nRows nCols : Nat) : Nat → Nat → Wander → Option Wander
  | 0, _, t => some t
  | n + 1, tau, t => do
    let step : Int := if tau % 2 = 0 then -1 else (nRows / 2 : Nat) - 1
    let t ← wanderLoop nRows nCols step nRows t
    timeLoop nRows nCols n (tau + 1) t

/-- The input part of `Lyra2`, lyra2re.go:375-405: the matrix with password, salt, parameters and padding. -/
def fillInput (size kLen : Nat) (pwd salt : Bytes) (timeCost nRows nCols nBlocksInput : Nat) : List U64 :=
  let m := List.replicate size 0#64
  let m := forLoop 0 (pwd.length / 8) (fun m j => m.set (0 + j) (getLE64 pwd (j * 8))) m
  let p := pwd.length / 8
  let m := forLoop 0 (salt.length / 8) (fun m j => m.set (p + j) (getLE64 salt (j * 8))) m
  let p := p + salt.length / 8
  let m := m.set p (BitVec.ofNat 64 kLen)
  let m := m.set (p + 1) (BitVec.ofNat 64 pwd.length)
  let m := m.set (p + 2) (BitVec.ofNat 64 salt.length)
  let m := m.set (p + 3) (BitVec.ofNat 64 timeCost)
  let m := m.set (p + 4) (BitVec.ofNat 64 nRows)
  let m := m.set (p + 5) (BitVec.ofNat 64 nCols)
  let m := m.set (p + 6) 0x80#64
  let q := (nBlocksInput * 64) / 8 - 1
  m.set q (m.getD q 0#64 ^^^ 0x0100000000000000#64)

/-- lyra2re.go:340-469 `Lyra2` (`stride` is 64 in lyra2re.go:414 and 8 in lyra2re2/lyra2re.go:417): the new contents of `k`; `none` is a panic.
`nRows`, `nCols` are not negative (else `make` panics). Written indices do not pass `nBlocksInput * 8 - 1` and that one is written (line 405); the
blocks read by line 413 end at `(nBlocksInput - 1) * stride + 8`; rows 0 and 1 are used by lines 418 and 419. -/
def lyra2 (stride : Nat) (k pwd salt : Bytes) (timeCost nRows nCols : Nat) : Option Bytes :=
  let size := nRows * (12 * nCols)
  let nBlocksInput := (salt.length + pwd.length + 6 * 8) / 64 + 1
  if size < nBlocksInput * 8 ∨ size < (nBlocksInput - 1) * stride + 8 ∨ nRows < 2 then none
  else do
    let m := fillInput size k.length pwd salt timeCost nRows nCols nBlocksInput
    let state := forLoop 0 nBlocksInput (fun s i => absorbBlockBlake2Safe s m (stride * i)) newState
    let x := reducedSqueezeRow0 ⟨state, m⟩ (0 * (12 * nCols)) nCols
    let x := reducedDuplexRow1 x (0 * (12 * nCols)) (1 * (12 * nCols)) nCols
    let t ← setupLoop nRows nCols nRows { x := x, row := 2, prev := 1, rowa := 0#64, step := 1#64, window := 2#64, gap := 1#64 }
    let w ← timeLoop nRows nCols timeCost 1 ⟨t.x, 0, t.prev, t.rowa⟩
    if w.rowa.toNat < nRows then some (squeeze (absorbBlock w.x.state w.x.m (w.rowa.toNat * (12 * nCols))) k)
    else none

/-- `Lyra2` of package lyra2re -/
def v1 : Bytes → Bytes → Bytes → Nat → Nat → Nat → Option Bytes := lyra2 64
/-- `Lyra2` of package lyra2re2 -/
def v2 : Bytes → Bytes → Bytes → Nat → Nat → Nat → Option Bytes := lyra2 8

end Verif.Lyra2
