import Verif.HashAPI
/-
md6: digest.go, utils.go, sbox.go.
-/
namespace Verif.MD6

/-- A pair of 32-bit words, high word first (the `[]uint32` of length 2 of the code). -/
abbrev P := U32 × U32

/-- md6/utils.go:57-59 `xor` -/
def xor (x y : P) : P := (x.1 ^^^ y.1, x.2 ^^^ y.2)
/-- md6/utils.go:61-63 `and` -/
def and (x y : P) : P := (x.1 &&& y.1, x.2 &&& y.2)
/-- md6/utils.go:65-80 `shl` -/
def shl (x : P) (n : Nat) : P :=
  if n ≥ 32 then (x.2 <<< (n - 32), 0) else (x.1 <<< n ||| x.2 >>> (32 - n), x.2 <<< n)
/-- md6/utils.go:82-97 `shr` -/
def shr (x : P) (n : Nat) : P :=
  if n ≥ 32 then (0, x.1 >>> (n - 32)) else (x.1 >>> n, x.1 <<< (32 - n) ||| x.2 >>> n)
/-- md6/utils.go:99-113 `toWord` (inputs whose length is a multiple of 8) -/
def toWord (b : Bytes) : List P := (List.range (b.length / 8)).map fun i => (getBE32 b (8 * i), getBE32 b (8 * i + 4))
/-- md6/utils.go:115-126 `fromWord` -/
def fromWord (w : List P) : Bytes := (w.map fun p => be32 p.1 ++ be32 p.2).flatten
/-- md6/utils.go:128-143 `crop` with right = true -/
def crop (size : Nat) (hash : Bytes) : Bytes :=
  let length := (size + 7) / 8
  let remain := size % 8
  let hash := hash.drop (hash.length - length)
  if remain > 0 then hash.set (length - 1) (at8 hash (length - 1) &&& BitVec.ofNat 8 ((0xFF <<< (8 - remain)) &&& 0xFF)) else hash

/-- md6/sbox.go:7-8 -/
def S0 : P := (0x01234567#32, 0x89ABCDEF#32)
def Sm : P := (0x7311C281#32, 0x2425CFA0#32)
/-- md6/sbox.go:10-26 `Q` -/
def Q : List P := [
  (0x7311C281#32, 0x2425CFA0#32),
  (0x64322864#32, 0x34AAC8E7#32),
  (0xB60450E9#32, 0xEF68B7C1#32),
  (0xE8FB2390#32, 0x8D9F06F1#32),
  (0xDD2E76CB#32, 0xA691E5BF#32),
  (0x0CD0D63B#32, 0x2C30BC41#32),
  (0x1F8CCF68#32, 0x23058F8A#32),
  (0x54E5ED5B#32, 0x88E3775D#32),
  (0x4AD12AAE#32, 0x0A6D6031#32),
  (0x3E7F16BB#32, 0x88222E0D#32),
  (0x8AF8671D#32, 0x3FB50C2C#32),
  (0x995AD117#32, 0x8BD25C31#32),
  (0xC878C1DD#32, 0x04C4B633#32),
  (0x3B72066C#32, 0x7A1552AC#32),
  (0x0D6F3522#32, 0x631EFFCB#32)]
/-- md6/sbox.go:28-30 `t`, `rs`, `ls` -/
def t : List Nat := [17, 18, 21, 31, 67, 89]
def rs : List Nat := [10, 5, 13, 10, 11, 12, 2, 7, 14, 15, 7, 13, 11, 7, 6, 12]
def ls : List Nat := [11, 24, 9, 16, 15, 9, 27, 15, 6, 2, 29, 8, 15, 5, 31, 9]

/-- md6/digest.go:13-28 `digest` (the fields `s` and `M` are never read) -/
structure Digest where
  x : Bytes
  nx : Nat
  len : U64
  d : Nat
  K : List P
  k : Nat
  r : Nat
  L : Int
  ell : Nat
  C : List P

/-- md6/digest.go:69-80 `Reset` -/
def Digest.reset (g : Digest) : Digest := { g with x := zeros 512, nx := 0, len := 0, ell := 0, C := [] }

/-- md6/digest.go:31-59 `newDigest` for sizes ≥ 0 -/
def newDigest (size : Nat) (key : Bytes) (levels : Int) : Digest :=
  let key := if key.length > 64 then key.take 64 else key
  let k := key.length
  let K := toWord (key ++ zeros (64 - key.length))
  let r := if k > 0 then max 80 (40 + size / 4) else max 0 (40 + size / 4)
  Digest.reset ⟨zeros 512, 0, 0, size, K, k, r, levels, 0, []⟩

/-- md6/digest.go:203-212: one step of `f`, on the array and at the index i + s -/
def fStep (S : P) (A : List P) (i s : Nat) : List P :=
  let a := fun k => A.getD (i + s - t.getD k 0) (0, 0)
  let x := S
  let x := xor x (a 5)
  let x := xor x (a 0)
  let x := xor x (and (a 1) (a 2))
  let x := xor x (and (a 3) (a 4))
  let x := xor x (shr x (rs.getD s 0))
  A.set (i + s) (xor x (shl x (ls.getD s 0)))
/-- md6/digest.go:188-219 `f` -/
def f (r : Nat) (N : List P) : List P :=
  let A := goCopy (List.replicate (89 + r * 16) (0, 0)) 0 N
  let st := forLoop 0 r (fun (st : P × List P) j =>
    let A := forLoop 0 16 (fun A s => fStep st.1 A (89 + 16 * j) s) st.2
    (xor (xor (shl st.1 1) (shr st.1 (64 - 1))) (and st.1 Sm), A)) (S0, A)
  st.2.drop (st.2.length - 16)

/-- md6/digest.go:221-241 `mid`, always called with i = 0 -/
def Digest.mid (g : Digest) (B C : List P) (i p z : U32) : List P :=
  let U : P := ((BitVec.ofNat 32 g.ell &&& 0xFF) <<< 24 ||| (i / 0xFFFFFFFF#32) &&& 0xFFFFFF, i &&& 0xFFFFFFFF#32)
  let V : P := (((BitVec.ofNat 32 g.r &&& 0xFFF) <<< 16) ||| ((BitVec.ofInt 32 g.L &&& 0xFF) <<< 8) ||| ((z &&& 0xF) <<< 4) ||| ((p &&& 0xF000) >>> 12),
    ((p &&& 0xFFF) <<< 20) ||| ((BitVec.ofNat 32 g.k &&& 0xFF) <<< 12) ||| (BitVec.ofNat 32 g.d &&& 0xFFF))
  f g.r (Q ++ g.K ++ [U] ++ [V] ++ C ++ B)

/-- The zero bytes appended until the length is a positive multiple of `b` (md6/digest.go:143-146 and 168-171). -/
def padCount (len b : Nat) : Nat := if len < 1 then b else (b - len % b) % b

/-- md6/digest.go:132-159 `par`: there is one block, so one turn of the loop with i = 0. -/
def Digest.par (g : Digest) (M : Bytes) (length : U64) (final : Bool) : Digest :=
  let z := if final ∧ length > 512 then 0 else 1
  let P := 8 * padCount M.length 512
  let M := M ++ zeros (padCount M.length 512)
  let p := if final then P else 0
  { g with C := g.mid (toWord M) g.C 0 (BitVec.ofNat 32 p) (BitVec.ofNat 32 z) }
/-- md6/digest.go:162-186 `seq` (b - c = 384) -/
def Digest.seq (g : Digest) (M : Bytes) (final : Bool) : Digest :=
  let P := 8 * padCount M.length 384
  let M := M ++ zeros (padCount M.length 384)
  let p := if final then P else 0
  let z := if final then 1 else 0
  { g with C := g.mid (toWord M) g.C 0 (BitVec.ofNat 32 p) (BitVec.ofNat 32 z) }
/-- md6/digest.go:121-129 `process` -/
def Digest.process (g : Digest) (M : Bytes) (length : U64) (final : Bool) : Digest :=
  let g := { g with ell := g.ell + 1 }
  if (g.ell : Int) > g.L then g.seq M final else g.par M length final

/-- md6/digest.go:88-100: the loop of `Write`. -/
def Digest.writeLoop : Nat → Digest → Bytes → Digest × Bytes
  | 0, g, p => (g, p)
  | fuel + 1, g, p =>
    if g.nx + p.length ≥ 512 then
      let xx := 512 - g.nx
      let g := { g with x := goCopy g.x g.nx p, len := g.len + BitVec.ofNat 64 xx }
      let g := g.process g.x g.len false
      writeLoop fuel { g with nx := 0 } (p.drop xx)
    else (g, p)
/-- md6/digest.go:82-107 `Write` -/
def Digest.write (g : Digest) (p : Bytes) : Digest × Nat :=
  let (h, q) := g.writeLoop (p.length + 1) p
  ({ h with x := goCopy h.x h.nx q, nx := h.nx + q.length, len := h.len + BitVec.ofNat 64 q.length }, p.length)

/-- md6/digest.go:115-119 `checkSum`, on the copy; the slice expression of `crop` panics when more bytes are wanted than the 16 words have. -/
def Digest.checkSum (g : Digest) : Option Bytes :=
  let h := g.process (g.x.take g.nx) g.len true
  if (fromWord h.C).length < (g.d + 7) / 8 then none else some (crop g.d (fromWord h.C))

def impl : HashImpl Digest where
  write g p := some (g.write p)
  sum g b := g.checkSum.map fun h => (g, b ++ h)
  reset := Digest.reset
  size g := g.d / 8
  blockSize _ := 512

end Verif.MD6
