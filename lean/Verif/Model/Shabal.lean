import Verif.Model.ShabalTables
import Verif.HashAPI
/-
Package shabal: digest.go.
-/
namespace Verif.Shabal

/-- The fields state (44 words: 12 of A, 16 of B, 16 of C) and W of the digest, digest.go:21-33.  W is an int64 in the code. -/
structure Core where
  A : List U32
  B : List U32
  C : List U32
  W : U64

def g (l : List U32) (i : Nat) : U32 := l.getD i 0

/-- digest.go:235-282: the message words -/
def loadM (data : Bytes) (off : Nat) : List U32 := loadTab.foldl (fun M (m, o, _, _, _) => M.set m (getLE32 data (off + o))) (List.replicate 16 0)
/-- digest.go:235-282: their addition to B, and the rotation -/
def addM (M B : List U32) : List U32 :=
  loadTab.foldl (fun B (m, _, b, l, r) => B.set b (((g B b + g M m) <<< l) ||| ((g B b + g M m) >>> r))) B

/-- digest.go:289-384: one pair of statements -/
def stepT (M : List U32) (s : Core) : Nat × Nat × Nat × Nat × Nat × Nat × Nat × Nat → Core
  | (a, p, c, x, y, z, m, b) =>
    let v := ((g s.A a ^^^ (((g s.A p <<< 15) ||| (g s.A p >>> 17)) * 5) ^^^ g s.C c) * 3) ^^^ g s.B x ^^^ (g s.B y &&& ~~~ g s.B z) ^^^ g M m
    { s with A := s.A.set a v, B := s.B.set b (~~~ ((g s.B b <<< 1) ||| (g s.B b >>> 31)) ^^^ v) }

/-- digest.go:386-397 -/
def addC (C A : List U32) : List U32 := addTab.foldl (fun A (a, x, y, z) => A.set a (g A a + (g C x + g C y + g C z))) A

/-- digest.go:234-418: one turn of the loop of core -/
def coreBlock (data : Bytes) (off : Nat) (s : Core) : Core :=
  let M := loadM data off
  let s := { s with B := addM M s.B }
  let A := s.A.set 0 (g s.A 0 ^^^ s.W.setWidth 32)
  let A := A.set 1 (g A 1 ^^^ (s.W >>> 32).setWidth 32)
  let s := { s with A := A, W := s.W + 1 }
  let s := stepTab.foldl (stepT M) s
  let A := addC s.C s.A
  -- digest.go:399-416: tmp = B_i; B_i = C_i - M_i; C_i = tmp, for i = 0 … 15
  { A := A, B := (List.range 16).map fun i => g s.C i - g M i, C := s.B, W := s.W }

/-- digest.go:181-465 -/
def core (s : Core) (data : Bytes) (num : Nat) : Core := forLoop 0 num (fun s k => coreBlock data (64 * k) s) s

structure Digest where
  outSizeW32 : Nat
  buf : Bytes
  ptr : Nat
  c : Core

/-- digest.go:157-166: "sg.buf[(i << 2) + 0] = byte(v + i); sg.buf[(i << 2) + 1] = byte((v + i) >> 8)" for i = 0 … 15 -/
def ivBuf (buf : Bytes) (v : Nat) : Bytes :=
  forLoop 0 16 (fun b i => (b.set (4 * i) (BitVec.ofNat 8 (v + i))).set (4 * i + 1) (BitVec.ofNat 8 ((v + i) / 256))) buf

/-- digest.go:144-179 -/
def getIV (outSizeW32 : Nat) : Core :=
  let outSize := outSizeW32 * 32
  let s : Core := { A := List.replicate 12 0, B := List.replicate 16 0, C := List.replicate 16 0, W := -1 }
  let buf := ivBuf (zeros 64) outSize
  let s := core s buf 1
  let buf := ivBuf buf (outSize + 16)
  core s buf 1

/-- An array of 44 words as A, B, C. -/
def unpack (l : List U32) : Core := { A := l.take 12, B := (l.drop 12).take 16, C := l.drop 28, W := 1 }

/-- digest.go:49-73 (the fields s, x, nx and len are never used) -/
def reset (outSizeW32 : Nat) : Digest :=
  { outSizeW32 := outSizeW32, buf := zeros 64, ptr := 0,
    c := if outSizeW32 = 6 then unpack iv192 else if outSizeW32 = 7 then unpack iv224 else if outSizeW32 = 8 then unpack iv256
      else if outSizeW32 = 12 then unpack iv384 else if outSizeW32 = 16 then unpack iv512 else { getIV outSizeW32 with W := 1 } }

/-- digest.go:36-47; none is the error. -/
def newDigest (outSize : Int) : Option Digest :=
  if outSize < 32 ∨ outSize > 512 ∨ outSize % 32 ≠ 0 then none else some (reset (outSize / 32).toNat)

/-- digest.go:103-113: the part of Write after the buffer, on the rest p of the data. -/
def Digest.tail (d : Digest) (p : Bytes) : Digest :=
  let num := p.length / 64
  let c := if num > 0 then core d.c p num else d.c
  let off := if num > 0 then num * 64 else 0
  let plen := if num > 0 then p.length % 64 else p.length
  { d with c := c, buf := goCopy d.buf 0 (p.drop off), ptr := plen }

/-- digest.go:83-116 -/
def Digest.write (d : Digest) (p : Bytes) : Digest :=
  if d.ptr ≠ 0 then
    let rlen := 64 - d.ptr
    if p.length < rlen then { d with buf := goCopy d.buf d.ptr p, ptr := d.ptr + p.length }
    else
      let buf := goCopy d.buf d.ptr (p.take rlen)
      Digest.tail { d with buf := buf, c := core d.c buf 1 } (p.drop rlen)
  else d.tail p

/-- digest.go:125-153 -/
def Digest.checkSum (d : Digest) : Bytes :=
  let dlen := 4 * d.outSizeW32
  let buf := d.buf.set d.ptr 0x80
  let buf := forLoop (d.ptr + 1) 64 (fun b i => b.set i 0) buf
  let c := forLoop 0 4 (fun c _ => let c := core c buf 1; { c with W := c.W - 1 }) d.c
  let state := c.A ++ c.B ++ c.C
  (forLoop 0 dlen (fun (s : Nat × U32 × Bytes) i =>
    let s := if i % 4 = 0 then (s.1 + 1, g state s.1, s.2.2) else s
    (s.1, s.2.1 >>> 8, s.2.2 ++ [s.2.1.setWidth 8])) (44 - dlen / 4, 0, [])).2.2

/-- digest.go:49-123 -/
def impl : HashImpl Digest where
  write d p := some (d.write p, p.length)
  sum d b := some (d, b ++ d.checkSum)
  reset d := reset d.outSizeW32
  size d := 4 * d.outSizeW32
  blockSize _ := 64

end Verif.Shabal
