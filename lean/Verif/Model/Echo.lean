import Verif.LoopBuf
import Verif.HashAPI
import Verif.Model.EchoTables
/-
Model of package echo: digest.go, utils.go (the tables of sbox.go are in EchoTables).
-/
namespace Verif.Echo

/-- echo/utils.go:19-30 -/
def bytesToUint64s (b : Bytes) : List U64 := (List.range (b.length / 8)).map fun i => getLE64 b (i * 8)
/-- echo/utils.go:32-43 -/
def uint64sToBytes (w : List U64) : Bytes := w.flatMap le64

/-- `T[k][byte(w >> s)]` -/
def look (t : List U32) (w : U64) (s : Nat) : U32 := t.getD ((w >>> s).setWidth 8).toNat 0
/-- `T[k][byte(t >> s)]` for a uint32 -/
def look32 (t : List U32) (w : U32) (s : Nat) : U32 := t.getD ((w >>> s).setWidth 8).toNat 0

/-- echo/digest.go:186-230: the body of the loop over r (BIG.SubWords), new values of w[idx] and w[idx+1]. -/
def subWord (counter salt0 salt1 a b : U64) : U64 × U64 :=
  let t0 := counter.setWidth 32 ^^^ look T0 a 0 ^^^ look T1 a 40 ^^^ look T2 b 16 ^^^ look T3 b 56
  let t1 := (counter >>> 32).setWidth 32 ^^^ look T0 a 32 ^^^ look T1 b 8 ^^^ look T2 b 48 ^^^ look T3 a 24
  let t2 := look T0 b 0 ^^^ look T1 b 40 ^^^ look T2 a 16 ^^^ look T3 a 56
  let t3 := look T0 b 32 ^^^ look T1 a 8 ^^^ look T2 a 48 ^^^ look T3 b 24
  let c := (look32 T0 t0 0 ^^^ look32 T1 t1 8 ^^^ look32 T2 t2 16 ^^^ look32 T3 t3 24).setWidth 64 ^^^
    ((look32 T0 t1 0 ^^^ look32 T1 t2 8 ^^^ look32 T2 t3 16 ^^^ look32 T3 t0 24).setWidth 64 <<< 32) ^^^ salt0
  let d := (look32 T0 t2 0 ^^^ look32 T1 t3 8 ^^^ look32 T2 t0 16 ^^^ look32 T3 t1 24).setWidth 64 ^^^
    ((look32 T0 t3 0 ^^^ look32 T1 t0 8 ^^^ look32 T2 t1 16 ^^^ look32 T3 t2 24).setWidth 64 <<< 32) ^^^ salt1
  (c, d)

/-- `w[i], w[j] = w[j], w[i]` -/
def swap (w : List U64) (p : Nat × Nat) : List U64 := (w.set p.1 (w.getD p.2 0)).set p.2 (w.getD p.1 0)

/-- echo/digest.go:232-247 (BIG.ShiftRows) -/
def swaps : List (Nat × Nat) := [(2, 10), (3, 11), (4, 20), (5, 21), (6, 30), (7, 31), (12, 28), (13, 29), (22, 14), (23, 15),
  (30, 14), (31, 15), (26, 18), (27, 19), (26, 10), (27, 11)]

/-- echo/digest.go:257-260, with the constants of sbox.go:3-5 -/
def dbl (a : U64) : U64 := ((a <<< 1) &&& 0xfefefefefefefefe#64) ^^^ (((a >>> 7) &&& 0x0101010101010101#64) * 0x1b#64)

/-- echo/digest.go:251-265: the body of the loops over i and j (BIG.MixColumns). -/
def mixCol (w : List U64) (idx : Nat) : List U64 :=
  let a := w.getD idx 0
  let b := w.getD (idx + 2) 0
  let c := w.getD (idx + 4) 0
  let d := w.getD (idx + 6) 0
  let w := w.set idx (dbl a ^^^ dbl b ^^^ b ^^^ c ^^^ d)
  let w := w.set (idx + 2) (dbl b ^^^ dbl c ^^^ c ^^^ d ^^^ a)
  let w := w.set (idx + 4) (dbl c ^^^ dbl d ^^^ d ^^^ a ^^^ b)
  w.set (idx + 6) (dbl d ^^^ dbl a ^^^ a ^^^ b ^^^ c)

/-- echo/digest.go:184-267: one turn of the loop over l; the counter is part of the loop state. -/
def round (salt0 salt1 : U64) (st : List U64 × U64) : List U64 × U64 :=
  let st := forLoop 0 16 (fun (st : List U64 × U64) r =>
    let c := subWord st.2 salt0 salt1 (st.1.getD (r * 2) 0) (st.1.getD (r * 2 + 1) 0)
    ((st.1.set (r * 2) c.1).set (r * 2 + 1) c.2, st.2 + 1)) st
  let w := swaps.foldl swap st.1
  let w := forLoop 0 4 (fun w i => forLoop 0 2 (fun w j => mixCol w (i * 4 * 2 + j)) w) w
  (w, st.2)

/-- echo/digest.go:17-25 -/
structure Digest where
  s : List U64
  x : Bytes
  nx : Nat
  len : U64
  hs : Int
  bs : Nat
  salt : U64 × U64

/-- echo/digest.go:166-280 `transform`, the new d.s. -/
def transform (hs : Int) (salt : U64 × U64) (s : List U64) (len : U64) (x : Bytes) (addedbits : Bool) (addtototal : U64) : List U64 :=
  let counter : U64 := if addedbits then len + addtototal else 0
  let xx := bytesToUint64s x
  let s := s.take (32 - xx.length) ++ xx
  let w := (forLoop 0 (if hs > 256 then 10 else 8) (fun st _ => round salt.1 salt.2 st) (s, counter)).1
  if hs ≤ 256 then
    forLoop 0 8 (fun h i => h.set i (h.getD i 0 ^^^ h.getD (i + 8) 0 ^^^ h.getD (i + 16) 0 ^^^ h.getD (i + 24) 0 ^^^
      w.getD i 0 ^^^ w.getD (i + 8) 0 ^^^ w.getD (i + 16) 0 ^^^ w.getD (i + 24) 0)) s
  else
    forLoop 0 16 (fun h i => h.set i (h.getD i 0 ^^^ h.getD (i + 16) 0 ^^^ w.getD i 0 ^^^ w.getD (i + 16) 0)) s

/-- echo/digest.go:61-90 `Reset`; it reads the fields hs and salt only. -/
def reset (hs : Int) (salt : U64 × U64) : Digest :=
  let bs := if hs > 256 then 1024 else 1536
  let r := if hs > 256 then 8 else 4
  let s := forLoop 0 r (fun s i => (s.set (2 * i) (BitVec.ofInt 64 hs)).set (2 * i + 1) 0) (List.replicate 32 (0 : U64))
  { s := s, x := zeros (bs / 8), nx := 0, len := 0, hs := hs, bs := bs, salt := salt }

/-- echo/digest.go:28-59 `newDigest` (New is NewWithSalt with no salt, echo.go:8-14); `none` is an error.  Go's `%` is `tmod`. -/
def newDigest (hashsize : Int) (salt : Bytes) : Option Digest :=
  if hashsize = 0 then none
  else if hashsize.tmod 8 > 0 then none
  else if hashsize > 512 then none
  else if salt.length > 0 then
    if salt.length ≠ 16 then none
    else
      let s := bytesToUint64s salt
      some (reset hashsize (s.getD 0 0, s.getD 1 0))
  else some (reset hashsize (0, 0))

/-- echo/digest.go:100-124 `Write`: the state of the loop is d.s and d.len. -/
def Digest.write (d : Digest) (p : Bytes) : Digest :=
  let r := loopWrite (d.bs / 8)
    (fun (c : List U64 × U64) x xx => (transform d.hs d.salt c.1 c.2 x true (BitVec.ofNat 64 xx * 8), c.2 + BitVec.ofNat 64 xx * 8))
    (fun c plen => (c.1, c.2 + BitVec.ofNat 64 plen * 8)) (p.length + 1) (d.s, d.len) d.x d.nx p
  { d with s := r.1.1, len := r.1.2, x := r.2.1, nx := r.2.2 }

/-- echo/digest.go:133-164 `checkSum`; `none` is the panic of the slice expression `ss[:d.hs / 8]` (Go's `/` is `tdiv`). -/
def Digest.checkSum (d : Digest) : Option Bytes :=
  let x := d.x.set d.nx 0x80#8
  let nx := d.nx + 1
  let limit := d.bs / 8
  let (s, x, nx) := if nx > limit - 18 then
      let x := goCopy x nx (zeros limit)
      (transform d.hs d.salt d.s d.len x true 0, x, 0)
    else (d.s, x, nx)
  let x := goCopy x nx (zeros limit)
  let hsize : BitVec 16 := BitVec.ofInt 16 d.hs
  let x := goCopy x (limit - 18) [hsize.setWidth 8, (hsize >>> 8).setWidth 8]
  let x := goCopy x (limit - 16) (le64 d.len)
  let x := goCopy x (limit - 8) (zeros limit)
  let s := transform d.hs d.salt s d.len x (decide (nx > 1)) 0
  let ss := uint64sToBytes s
  if 0 ≤ d.hs.tdiv 8 ∧ (d.hs.tdiv 8).toNat ≤ ss.length then some (ss.take (d.hs.tdiv 8).toNat) else none

/-- echo/digest.go:92-98, 126-131 (Sum works on a copy, 282-292).  Size is negative in Go for a negative hs; the model gives 0 then. -/
def impl : HashImpl Digest where
  write d p := some (d.write p, p.length)
  sum d b := d.checkSum.map fun h => (d, b ++ h)
  reset d := reset d.hs d.salt
  size d := (d.hs.tdiv 8).toNat
  blockSize d := d.bs / 8

end Verif.Echo
