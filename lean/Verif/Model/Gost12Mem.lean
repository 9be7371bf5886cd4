import Verif.Model.Gost12
/-
Model of gost/gost34112012/hash.go with the arrays the object works in.  Gost12.lean computes with values; here the functions read and write
the arrays byte by byte, as the Go code does, so that an operand may be the array that is being written.
-/
namespace Verif.Gost12Mem
open Verif.Gost12 (c pi tau cache)

/-- The arrays: the fields of hash.go:282-295 and the two `checkSum` makes (hash.go:366-367). -/
inductive Ref where
  | hsh | chk | tmp | psBuf | eMsgBuf | eKBuf | eXorBuf | gBuf | addBuf
  | buf1 | hsh1
  deriving DecidableEq

abbrev Mem := Ref → Bytes

/-- `r = x` -/
def Mem.put (M : Mem) (r : Ref) (x : Bytes) : Mem := fun k => if k = r then x else M k

/-- A slice that is read: one of the arrays or a constant (`c[i][:]`). -/
inductive Opd where
  | ref (r : Ref)
  | val (b : Bytes)
  deriving DecidableEq

/-- What a slice contains. -/
def Opd.get (M : Mem) : Opd → Bytes
  | .ref r => M r
  | .val b => b

/-- hash.go:425-431 `blockXor`; the result is `dst`. -/
def blockXor (M : Mem) (dst : Ref) (x y : Opd) : Mem :=
  forLoop 0 64 (fun (M : Mem) i => M.put dst ((M dst).set i (at8 (x.get M) i ^^^ at8 (y.get M) i))) M
/-- hash.go:433-439 `ps`; the result is `psBuf`. -/
def ps (M : Mem) (data : Opd) : Mem :=
  forLoop 0 64 (fun (M : Mem) i => M.put .psBuf ((M .psBuf).set (tau.getD i 0) (at8 pi (at8 (data.get M) i).toNat))) M
/-- hash.go:441-456 `l`; the result is `out`. -/
def l (M : Mem) (out : Ref) (data : Opd) : Mem :=
  forLoop 0 8 (fun (M : Mem) i =>
    let data := data.get M
    let res64 := 0 ^^^ cache 0 (at8 data (8*i+0)) ^^^ cache 1 (at8 data (8*i+1)) ^^^ cache 2 (at8 data (8*i+2)) ^^^
      cache 3 (at8 data (8*i+3)) ^^^ cache 4 (at8 data (8*i+4)) ^^^ cache 5 (at8 data (8*i+5)) ^^^
      cache 6 (at8 data (8*i+6)) ^^^ cache 7 (at8 data (8*i+7))
    M.put out (goCopy (M out) (i*8) (le64 res64))) M
/-- hash.go:418-419, one pass of the loop of `e`: the arrays, `k` and `msg`. -/
def ePass (st : Mem × Opd × Opd) (i : Nat) : Mem × Opd × Opd :=
  let M := st.1
  let k := st.2.1
  let msg := st.2.2
  let M := blockXor M .eXorBuf k msg
  let M := ps M (.ref .eXorBuf)
  let M := l M .eMsgBuf (.ref .psBuf)
  let msg := Opd.ref .eMsgBuf
  let M := blockXor M .eXorBuf k (.val (c.getD i []))
  let M := ps M (.ref .eXorBuf)
  let M := l M .eKBuf (.ref .psBuf)
  let k := Opd.ref .eKBuf
  (M, k, msg)
/-- hash.go:416-423 `e`; the result is `eXorBuf`. -/
def e (M : Mem) (k msg : Opd) : Mem :=
  let r := forLoop 0 12 ePass (M, k, msg)
  blockXor r.1 .eXorBuf r.2.1 r.2.2
/-- hash.go:399-414 `g`; the result is `gBuf`. -/
def g (M : Mem) (n : U64) (hsh data : Opd) : Mem :=
  let M := M.put .gBuf (goCopy (M .gBuf) 0 (hsh.get M))
  let M := forLoop 0 8 (fun (M : Mem) i => M.put .gBuf ((M .gBuf).set i (at8 (M .gBuf) i ^^^ ((n >>> (8 * i)) &&& 0xFF).setWidth 8))) M
  let M := ps M (.ref .gBuf)
  let M := l M .gBuf (.ref .psBuf)
  let M := e M (.ref .gBuf) data
  let M := blockXor M .gBuf (.ref .eXorBuf) hsh
  blockXor M .gBuf (.ref .gBuf) data
/-- hash.go:388-397 `add512bit`; the result is `addBuf`. -/
def add512bit (M : Mem) (chk data : Opd) : Mem :=
  (forLoop 0 64 (fun (st : BitVec 16 × Mem) i =>
    let M := st.2
    let ss := (at8 (chk.get M) i).setWidth 16 + (at8 (data.get M) i).setWidth 16 + (st.1 >>> 8)
    (ss, M.put .addBuf ((M .addBuf).set i ((0xFF#16 &&& ss).setWidth 8)))) (0, M)).2

/-- hash.go:282-295 `digest` -/
structure Obj where
  size : Nat
  buf : Bytes
  n : U64
  mem : Mem

/-- hash.go:347-350: the arrays after a pass of the loop of `Write`; `b` is `h.buf`. -/
def pass (M : Mem) (n : U64) (b : Bytes) : Mem :=
  let M := M.put .tmp (goCopy (M .tmp) 0 (b.take 64))
  let M := g M n (.ref .hsh) (.ref .tmp)
  let M := M.put .hsh (goCopy (M .hsh) 0 (M .gBuf))
  let M := add512bit M (.ref .chk) (.ref .tmp)
  M.put .chk (goCopy (M .chk) 0 (M .addBuf))
/-- hash.go:346-353, the loop of `Write`. -/
def writeLoop : Nat → Obj → Obj
  | 0, h => h
  | fuel + 1, h =>
    if h.buf.length ≥ 64 then
      writeLoop fuel { h with mem := pass h.mem h.n h.buf, n := h.n + 64 * 8, buf := h.buf.drop 64 }
    else h
/-- hash.go:343-356 `Write` -/
def write (h : Obj) (data : Bytes) : Obj :=
  let h := { h with buf := h.buf ++ data }
  writeLoop h.buf.length h
/-- hash.go:366-371: the arrays up to `buf[len(h.buf)] = 1`; `b` is `h.buf`. -/
def sumBuf (M : Mem) (b : Bytes) : Mem :=
  let M := M.put .buf1 (zeros 64)
  let M := M.put .hsh1 (zeros 64)
  let M := M.put .tmp (goCopy (M .tmp) 0 (M .buf1))
  let M := M.put .buf1 (goCopy (M .buf1) 0 b)
  M.put .buf1 ((M .buf1).set b.length 1#8)
/-- `copy(hsh, h.g(n, x, data))` -/
def gHsh (M : Mem) (n : U64) (x data : Ref) : Mem :=
  let M := g M n (.ref x) (.ref data)
  M.put .hsh1 (goCopy (M .hsh1) 0 (M .gBuf))
/-- hash.go:365-386 `checkSum`, with the arrays as it leaves them; `none` is the index panic when 64 bytes or more are buffered. -/
def checkSum (h : Obj) : Option (Mem × Bytes) :=
  if h.buf.length ≥ 64 then none
  else
    let M := sumBuf h.mem h.buf
    let M := gHsh M h.n .hsh .buf1
    let M := M.put .tmp (goCopy (M .tmp) 0 (le64 (h.n + BitVec.ofNat 64 h.buf.length * 8)))
    let M := gHsh M 0 .hsh1 .tmp
    let M := add512bit M (.ref .chk) (.ref .buf1)
    let M := gHsh M 0 .hsh1 .addBuf
    some (M, if h.size = 32 then (M .hsh1).drop 32 else M .hsh1)
/-- hash.go:328-341 `Reset` -/
def reset (h : Obj) : Obj :=
  { h with
    n := 0, buf := []
    mem := forLoop 0 64 (fun (M : Mem) i =>
      let M := M.put .chk ((M .chk).set i 0)
      if h.size = 32 then M.put .hsh ((M .hsh).set i 1) else M.put .hsh ((M .hsh).set i 0)) h.mem }
/-- hash.go:298-318 `New`; `none` is the panic. -/
def new (size : Nat) : Option Obj :=
  if size ≠ 32 ∧ size ≠ 64 then none
  else some (reset { size := size, buf := [], n := 0, mem := fun _ => zeros 64 })
/-- hash.go:320-363: the methods.  `Sum` copies the struct (hash.go:360), which shares the arrays: they are left as `checkSum` leaves them. -/
def impl : HashImpl Obj where
  write h p := some (write h p, p.length)
  sum h b := (checkSum h).map fun r => ({ h with mem := r.1 }, b ++ r.2)
  reset := reset
  size h := h.size
  blockSize _ := 64

end Verif.Gost12Mem
