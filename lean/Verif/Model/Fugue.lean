import Verif.Model.FugueTables
import Verif.HashAPI
/-
Package fugue (fugue/digest.go, fugue/utils.go, fugue/fugue.go).
-/
namespace Verif.Fugue

/-- S[i] -/
def ix (S : List U32) (i : Nat) : U32 := S.getD i 0

/-- fugue/utils.go:68-146, on the values of the four words: the new values. -/
def smixv (x0 x1 x2 x3 : U32) : U32 × U32 × U32 × U32 :=
  let t0 (x : U32) : U32 := mixtab0.getD ((x >>> 24).setWidth 8).toNat 0
  let t1 (x : U32) : U32 := mixtab1.getD ((x >>> 16).setWidth 8).toNat 0
  let t2 (x : U32) : U32 := mixtab2.getD ((x >>> 8).setWidth 8).toNat 0
  let t3 (x : U32) : U32 := mixtab3.getD (x.setWidth 8).toNat 0
  let c0 := t0 x0 ^^^ t1 x0 ^^^ t2 x0 ^^^ t3 x0
  let c1 := t0 x1 ^^^ t1 x1 ^^^ t2 x1 ^^^ t3 x1
  let c2 := t0 x2 ^^^ t1 x2 ^^^ t2 x2 ^^^ t3 x2
  let c3 := t0 x3 ^^^ t1 x3 ^^^ t2 x3 ^^^ t3 x3
  let r0 := t0 x1 ^^^ t0 x2 ^^^ t0 x3
  let r1 := t1 x0 ^^^ t1 x2 ^^^ t1 x3
  let r2 := t2 x0 ^^^ t2 x1 ^^^ t2 x3
  let r3 := t3 x0 ^^^ t3 x1 ^^^ t3 x2
  (((c0 ^^^ (r0 <<< 0)) &&& 0xFF000000#32) ||| ((c1 ^^^ (r1 <<< 0)) &&& 0x00FF0000#32) ||| ((c2 ^^^ (r2 <<< 0)) &&& 0x0000FF00#32) ||| ((c3 ^^^ (r3 <<< 0)) &&& 0x000000FF#32),
   ((c1 ^^^ (r0 <<< 8)) &&& 0xFF000000#32) ||| ((c2 ^^^ (r1 <<< 8)) &&& 0x00FF0000#32) ||| ((c3 ^^^ (r2 <<< 8)) &&& 0x0000FF00#32) ||| ((c0 ^^^ (r3 >>> 24)) &&& 0x000000FF#32),
   ((c2 ^^^ (r0 <<< 16)) &&& 0xFF000000#32) ||| ((c3 ^^^ (r1 <<< 16)) &&& 0x00FF0000#32) ||| ((c0 ^^^ (r2 >>> 16)) &&& 0x0000FF00#32) ||| ((c1 ^^^ (r3 >>> 16)) &&& 0x000000FF#32),
   ((c3 ^^^ (r0 <<< 24)) &&& 0xFF000000#32) ||| ((c0 ^^^ (r1 >>> 8)) &&& 0x00FF0000#32) ||| ((c1 ^^^ (r2 >>> 8)) &&& 0x0000FF00#32) ||| ((c2 ^^^ (r3 >>> 8)) &&& 0x000000FF#32))

/-- fugue/utils.go:68-146 -/
def smix (S : List U32) (i0 i1 i2 i3 : Nat) : List U32 :=
  let y := smixv (ix S i0) (ix S i1) (ix S i2) (ix S i3)
  (((S.set i0 y.1).set i1 y.2.1).set i2 y.2.2.1).set i3 y.2.2.2

/-- One statement of the generated programs. -/
def exec1 (w : U32) (S : List U32) : Stmt → List U32
  | .xs i j => S.set i (ix S i ^^^ ix S j)
  | .ld i => S.set i w
  | .smix a b c e => smix S a b c e
def exec (w : U32) (S : List U32) (p : List Stmt) : List U32 := p.foldl (exec1 w) S

/-- fugue/utils.go:48-55 -/
def cmix30 (S : List U32) : List U32 := exec 0 S [.xs 0 4, .xs 1 5, .xs 2 6, .xs 15 4, .xs 16 5, .xs 17 6]
/-- fugue/utils.go:57-64 -/
def cmix36 (S : List U32) : List U32 := exec 0 S [.xs 0 4, .xs 1 5, .xs 2 6, .xs 18 4, .xs 19 5, .xs 20 6]

/-- The control flow of process2, process384, process512 (fugue/digest.go:165-431, 481-746, 801-1031): position pc in the pieces of the
switch followed by those of the loop; after the last piece the loop begins again.  `ws` are the words still to be read from buf. -/
def go (cases loop : List (List Stmt × Nat)) (pc : Nat) (w : U32) (S : List U32) : List U32 → List U32 × Nat
  | [] => (exec w S ((cases ++ loop).getD pc ([], 0)).1, ((cases ++ loop).getD pc ([], 0)).2)
  | w' :: ws => go cases loop (if pc + 1 < cases.length + loop.length then pc + 1 else cases.length) w' (exec w S ((cases ++ loop).getD pc ([], 0)).1) ws

/-- The entry `switch d.rshift` of the three functions: case r, or the loop when there is none. -/
def entry (cases : List (List Stmt × Nat)) (rshift : Nat) : Nat :=
  if 1 ≤ rshift ∧ rshift ≤ cases.length then rshift - 1 else cases.length

/-- fugue/digest.go:14-27.  x and nx are never used; left out. -/
structure Digest where
  s : List U32
  len : U64
  partialW : U32
  partialLen : Nat
  rshift : Nat
  tmpS : List U32
  initVal : List U32
  hs : Nat

/-- fugue/digest.go:42-62 -/
def reset (d : Digest) : Digest :=
  { d with len := 0, partialW := 0, partialLen := 0, rshift := 0, tmpS := List.replicate 36 0
           s := goCopy (List.replicate 36 0) (if d.hs ≤ 32 then 30 - d.initVal.length else 36 - d.initVal.length) d.initVal }
/-- fugue/digest.go:30-40 -/
def newDigest (iv : List U32) (hs : Nat) : Digest := reset ⟨[], 0, 0, 0, 0, [], iv, hs⟩

/-- fugue/digest.go:133-142 -/
def process (d : Digest) (w : U32) (buf : Bytes) (num : Nat) : Digest :=
  let ws := (List.range num).map fun i => getBE32 buf (4 * i)
  match d.hs with
  | 28 | 32 => let r := go prog256Cases prog256Loop (entry prog256Cases d.rshift) w d.s ws; { d with s := r.1, rshift := r.2 }
  | 48 => let r := go prog384Cases prog384Loop (entry prog384Cases d.rshift) w d.s ws; { d with s := r.1, rshift := r.2 }
  | 64 => let r := go prog512Cases prog512Loop (entry prog512Cases d.rshift) w d.s ws; { d with s := r.1, rshift := r.2 }
  | _ => d

/-- fugue/digest.go:78-84: the loop that fills the partial word; the bytes left over. -/
def fill : U32 → Nat → Bytes → U32 × Nat × Bytes
  | a, n, [] => (a, n, [])
  | a, n, b :: p => if n < 4 then fill ((a <<< 8) ||| b.setWidth 32) (n + 1) p else (a, n, b :: p)

/-- fugue/digest.go:72-104.  `num` is zlen >> 2. -/
def write (d : Digest) (p : Bytes) : Digest × Nat :=
  let d := { d with len := d.len + (BitVec.ofNat 64 p.length) <<< 3 }
  let f := fill d.partialW d.partialLen p
  let d := { d with partialW := f.1, partialLen := f.2.1 }
  let q := f.2.2
  if d.partialLen = 4 ∨ q.length > 0 then
    let zlen := q.length / 4 * 4
    let d := process d d.partialW q (zlen / 4)
    ({ d with partialW := (q.drop zlen).foldl (fun a b => (a <<< 8) ||| b.setWidth 32) 0, partialLen := q.length - zlen }, p.length)
  else (d, p.length)

/-- fugue/digest.go:157-161, on the pair (s, tmpS) -/
def ror (rc len : Nat) (st : List U32 × List U32) : List U32 × List U32 :=
  let tmp := goCopy st.2 0 ((st.1.take len).drop (len - rc))
  let s := goCopy st.1 rc (st.1.take (len - rc))
  (goCopy s 0 (tmp.take rc), tmp)

/-- Statements that only touch s. -/
def onS (f : List U32 → List U32) (st : List U32 × List U32) : List U32 × List U32 := (f st.1, st.2)

/-- fugue/digest.go:433-477 -/
def processFinal2 (d : Digest) : Bytes :=
  let st := ror (6 * d.rshift) 30 (d.s, d.tmpS)
  let st := forLoop 0 10 (fun st _ => onS (fun S => smix (cmix30 S) 0 1 2 3) (ror 3 30 st)) st
  let st := forLoop 0 13 (fun st _ =>
    let st := onS (fun S => exec 0 S [.xs 4 0, .xs 15 0]) st
    let st := onS (fun S => smix S 0 1 2 3) (ror 15 30 st)
    let st := onS (fun S => exec 0 S [.xs 4 0, .xs 16 0]) st
    onS (fun S => smix S 0 1 2 3) (ror 14 30 st)) st
  let S := exec 0 st.1 [.xs 4 0, .xs 15 0]
  [1, 2, 3, 4, 15, 16, 17].flatMap (fun i => be32 (ix S i)) ++ (if d.hs ≥ 32 then be32 (ix S 18) else [])

/-- fugue/digest.go:748-797 -/
def processFinal384 (d : Digest) : Bytes :=
  let st := ror (9 * d.rshift) 36 (d.s, d.tmpS)
  let st := forLoop 0 18 (fun st _ => onS (fun S => smix (cmix36 S) 0 1 2 3) (ror 3 36 st)) st
  let st := forLoop 0 13 (fun st _ =>
    let st := onS (fun S => exec 0 S [.xs 4 0, .xs 12 0, .xs 24 0]) st
    let st := onS (fun S => smix S 0 1 2 3) (ror 12 36 st)
    let st := onS (fun S => exec 0 S [.xs 4 0, .xs 13 0, .xs 24 0]) st
    let st := onS (fun S => smix S 0 1 2 3) (ror 12 36 st)
    let st := onS (fun S => exec 0 S [.xs 4 0, .xs 13 0, .xs 25 0]) st
    onS (fun S => smix S 0 1 2 3) (ror 11 36 st)) st
  let S := exec 0 st.1 [.xs 4 0, .xs 12 0, .xs 24 0]
  [1, 2, 3, 4, 12, 13, 14, 15, 24, 25, 26, 27].flatMap fun i => be32 (ix S i)

/-- fugue/digest.go:1033-1096 -/
def processFinal512 (d : Digest) : Bytes :=
  let st := ror (12 * d.rshift) 36 (d.s, d.tmpS)
  let st := forLoop 0 32 (fun st _ => onS (fun S => smix (cmix36 S) 0 1 2 3) (ror 3 36 st)) st
  let st := forLoop 0 13 (fun st _ =>
    let st := onS (fun S => exec 0 S [.xs 4 0, .xs 9 0, .xs 18 0, .xs 27 0]) st
    let st := onS (fun S => smix S 0 1 2 3) (ror 9 36 st)
    let st := onS (fun S => exec 0 S [.xs 4 0, .xs 10 0, .xs 18 0, .xs 27 0]) st
    let st := onS (fun S => smix S 0 1 2 3) (ror 9 36 st)
    let st := onS (fun S => exec 0 S [.xs 4 0, .xs 10 0, .xs 19 0, .xs 27 0]) st
    let st := onS (fun S => smix S 0 1 2 3) (ror 9 36 st)
    let st := onS (fun S => exec 0 S [.xs 4 0, .xs 10 0, .xs 19 0, .xs 28 0]) st
    onS (fun S => smix S 0 1 2 3) (ror 8 36 st)) st
  let S := exec 0 st.1 [.xs 4 0, .xs 9 0, .xs 18 0, .xs 27 0]
  [1, 2, 3, 4, 9, 10, 11, 12, 18, 19, 20, 21, 27, 28, 29, 30].flatMap fun i => be32 (ix S i)

/-- fugue/digest.go:144-155 -/
def processFinal (d : Digest) : Bytes :=
  match d.hs with
  | 28 | 32 => processFinal2 d
  | 48 => processFinal384 d
  | 64 => processFinal512 d
  | _ => []

/-- fugue/digest.go:115-118: the loop that shifts the partial word. -/
def shiftUp (a : U32) (n : Nat) : U32 := forLoop n 4 (fun a _ => a <<< 8) a

/-- fugue/digest.go:113-127 -/
def checkSum (d : Digest) : Bytes :=
  let d := if d.partialLen ≠ 0 then
      let a := shiftUp d.partialW d.partialLen
      process { d with partialW := a, partialLen := 4 } a [] 0
    else d
  let d := process d ((d.len >>> 32).setWidth 32) [] 0
  let d := process d (d.len.setWidth 32) [] 0
  processFinal d

/-- The methods; Sum (fugue/digest.go:106-111) works on a copy. -/
def impl : HashImpl Digest where
  write d p := some (write d p)
  sum d b := some (d, b ++ checkSum d)
  reset d := reset d
  size d := d.hs
  blockSize _ := 4

/-- fugue/fugue.go:8-10 -/
def new224 : Digest := newDigest initVal224 28
/-- fugue/fugue.go:13-15 -/
def new256 : Digest := newDigest initVal256 32
/-- fugue/fugue.go:18-20 -/
def new384 : Digest := newDigest initVal384 48
/-- fugue/fugue.go:23-25 -/
def new512 : Digest := newDigest initVal512 64

/-- fugue/fugue.go:28-65 -/
def sumOf (d : Digest) (size : Nat) (data : Bytes) : Bytes := goCopy (zeros size) 0 (checkSum (write d data).1)

end Verif.Fugue
