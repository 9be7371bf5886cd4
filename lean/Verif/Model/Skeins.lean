import Verif.Buffer
import Verif.Model.Skein
/-
Model of skeins (skeins/digest256.go, digest512.go, sbox.go, skeins.go).  The unrolled parts of `ubi`
are transcribed into instruction lists (tools/gen_skein512.py).
-/
namespace Verif.Skeins
open Verif.Threefish

/-- The body of `ubi` (skeins/digest256.go:143-526). -/
def ubi256 : List Instr := [
  .keyAbs 0 0 none none, .keyAbs 1 1 (some 0) none, .keyAbs 2 2 (some 1) none, .keyAbs 3 3 none (some 0),
  .mix 0 1 14, .mix 2 3 16, .mix 0 3 52, .mix 2 1 57,
  .mix 0 1 23, .mix 2 3 40, .mix 0 3 5, .mix 2 1 37,
  .keyAbs 0 1 none none, .keyAbs 1 2 (some 1) none, .keyAbs 2 3 (some 2) none, .keyAbs 3 4 none (some 1),
  .mix 0 1 25, .mix 2 3 33, .mix 0 3 46, .mix 2 1 12,
  .mix 0 1 58, .mix 2 3 22, .mix 0 3 32, .mix 2 1 32,
  .keyAbs 0 2 none none, .keyAbs 1 3 (some 2) none, .keyAbs 2 4 (some 0) none, .keyAbs 3 0 none (some 2),
  .mix 0 1 14, .mix 2 3 16, .mix 0 3 52, .mix 2 1 57,
  .mix 0 1 23, .mix 2 3 40, .mix 0 3 5, .mix 2 1 37,
  .keyAbs 0 3 none none, .keyAbs 1 4 (some 0) none, .keyAbs 2 0 (some 1) none, .keyAbs 3 1 none (some 3),
  .mix 0 1 25, .mix 2 3 33, .mix 0 3 46, .mix 2 1 12,
  .mix 0 1 58, .mix 2 3 22, .mix 0 3 32, .mix 2 1 32,
  .keyAbs 0 4 none none, .keyAbs 1 0 (some 1) none, .keyAbs 2 1 (some 2) none, .keyAbs 3 2 none (some 4),
  .mix 0 1 14, .mix 2 3 16, .mix 0 3 52, .mix 2 1 57,
  .mix 0 1 23, .mix 2 3 40, .mix 0 3 5, .mix 2 1 37,
  .keyAbs 0 0 none none, .keyAbs 1 1 (some 2) none, .keyAbs 2 2 (some 0) none, .keyAbs 3 3 none (some 5),
  .mix 0 1 25, .mix 2 3 33, .mix 0 3 46, .mix 2 1 12,
  .mix 0 1 58, .mix 2 3 22, .mix 0 3 32, .mix 2 1 32,
  .keyAbs 0 1 none none, .keyAbs 1 2 (some 0) none, .keyAbs 2 3 (some 1) none, .keyAbs 3 4 none (some 6),
  .mix 0 1 14, .mix 2 3 16, .mix 0 3 52, .mix 2 1 57,
  .mix 0 1 23, .mix 2 3 40, .mix 0 3 5, .mix 2 1 37,
  .keyAbs 0 2 none none, .keyAbs 1 3 (some 1) none, .keyAbs 2 4 (some 2) none, .keyAbs 3 0 none (some 7),
  .mix 0 1 25, .mix 2 3 33, .mix 0 3 46, .mix 2 1 12,
  .mix 0 1 58, .mix 2 3 22, .mix 0 3 32, .mix 2 1 32,
  .keyAbs 0 3 none none, .keyAbs 1 4 (some 2) none, .keyAbs 2 0 (some 0) none, .keyAbs 3 1 none (some 8),
  .mix 0 1 14, .mix 2 3 16, .mix 0 3 52, .mix 2 1 57,
  .mix 0 1 23, .mix 2 3 40, .mix 0 3 5, .mix 2 1 37,
  .keyAbs 0 4 none none, .keyAbs 1 0 (some 0) none, .keyAbs 2 1 (some 1) none, .keyAbs 3 2 none (some 9),
  .mix 0 1 25, .mix 2 3 33, .mix 0 3 46, .mix 2 1 12,
  .mix 0 1 58, .mix 2 3 22, .mix 0 3 32, .mix 2 1 32,
  .keyAbs 0 0 none none, .keyAbs 1 1 (some 1) none, .keyAbs 2 2 (some 2) none, .keyAbs 3 3 none (some 10),
  .mix 0 1 14, .mix 2 3 16, .mix 0 3 52, .mix 2 1 57,
  .mix 0 1 23, .mix 2 3 40, .mix 0 3 5, .mix 2 1 37,
  .keyAbs 0 1 none none, .keyAbs 1 2 (some 2) none, .keyAbs 2 3 (some 0) none, .keyAbs 3 4 none (some 11),
  .mix 0 1 25, .mix 2 3 33, .mix 0 3 46, .mix 2 1 12,
  .mix 0 1 58, .mix 2 3 22, .mix 0 3 32, .mix 2 1 32,
  .keyAbs 0 2 none none, .keyAbs 1 3 (some 0) none, .keyAbs 2 4 (some 1) none, .keyAbs 3 0 none (some 12),
  .mix 0 1 14, .mix 2 3 16, .mix 0 3 52, .mix 2 1 57,
  .mix 0 1 23, .mix 2 3 40, .mix 0 3 5, .mix 2 1 37,
  .keyAbs 0 3 none none, .keyAbs 1 4 (some 1) none, .keyAbs 2 0 (some 2) none, .keyAbs 3 1 none (some 13),
  .mix 0 1 25, .mix 2 3 33, .mix 0 3 46, .mix 2 1 12,
  .mix 0 1 58, .mix 2 3 22, .mix 0 3 32, .mix 2 1 32,
  .keyAbs 0 4 none none, .keyAbs 1 0 (some 2) none, .keyAbs 2 1 (some 0) none, .keyAbs 3 2 none (some 14),
  .mix 0 1 14, .mix 2 3 16, .mix 0 3 52, .mix 2 1 57,
  .mix 0 1 23, .mix 2 3 40, .mix 0 3 5, .mix 2 1 37,
  .keyAbs 0 0 none none, .keyAbs 1 1 (some 0) none, .keyAbs 2 2 (some 1) none, .keyAbs 3 3 none (some 15),
  .mix 0 1 25, .mix 2 3 33, .mix 0 3 46, .mix 2 1 12,
  .mix 0 1 58, .mix 2 3 22, .mix 0 3 32, .mix 2 1 32,
  .keyAbs 0 1 none none, .keyAbs 1 2 (some 1) none, .keyAbs 2 3 (some 2) none, .keyAbs 3 4 none (some 16),
  .mix 0 1 14, .mix 2 3 16, .mix 0 3 52, .mix 2 1 57,
  .mix 0 1 23, .mix 2 3 40, .mix 0 3 5, .mix 2 1 37,
  .keyAbs 0 2 none none, .keyAbs 1 3 (some 2) none, .keyAbs 2 4 (some 0) none, .keyAbs 3 0 none (some 17),
  .mix 0 1 25, .mix 2 3 33, .mix 0 3 46, .mix 2 1 12,
  .mix 0 1 58, .mix 2 3 22, .mix 0 3 32, .mix 2 1 32,
  .keyAbs 0 3 none none, .keyAbs 1 4 (some 0) none, .keyAbs 2 0 (some 1) none, .keyAbs 3 1 none (some 18)]

/-- The first half of the loop body of `ubi` (skeins/digest512.go:158-197); `.keyAbs w k t c` stands for `p_w += h[s+k] + t_t + uint64(s+c)`. -/
def ubi512A : List Instr := [
  .keyAbs 0 0 none none, .keyAbs 1 1 none none, .keyAbs 2 2 none none, .keyAbs 3 3 none none,
  .keyAbs 4 4 none none, .keyAbs 5 5 (some 0) none, .keyAbs 6 6 (some 1) none, .keyAbs 7 7 none (some 0),
  .mix 0 1 46, .mix 2 3 36, .mix 4 5 19, .mix 6 7 37,
  .mix 2 1 33, .mix 4 7 27, .mix 6 5 14, .mix 0 3 42,
  .mix 4 1 17, .mix 6 3 49, .mix 0 5 36, .mix 2 7 39,
  .mix 6 1 44, .mix 0 7 9, .mix 2 5 54, .mix 4 3 56]

/-- The second half of the loop body of `ubi` (skeins/digest512.go:198-238). -/
def ubi512B : List Instr := [
  .keyAbs 0 1 none none, .keyAbs 1 2 none none, .keyAbs 2 3 none none, .keyAbs 3 4 none none,
  .keyAbs 4 5 none none, .keyAbs 5 6 (some 1) none, .keyAbs 6 7 (some 2) none, .keyAbs 7 8 none (some 1),
  .mix 0 1 39, .mix 2 3 30, .mix 4 5 34, .mix 6 7 24,
  .mix 2 1 13, .mix 4 7 50, .mix 6 5 10, .mix 0 3 17,
  .mix 4 1 25, .mix 6 3 29, .mix 0 5 39, .mix 2 7 43,
  .mix 6 1 8, .mix 0 7 35, .mix 2 5 56, .mix 4 3 22]

/-- After the loop (skeins/digest512.go:245-253); as above with `s = 18`. -/
def ubi512Fin : List Instr := [
  .keyAbs 0 0 none none, .keyAbs 1 1 none none, .keyAbs 2 2 none none, .keyAbs 3 3 none none,
  .keyAbs 4 4 none none, .keyAbs 5 5 (some 0) none, .keyAbs 6 6 (some 1) none, .keyAbs 7 7 none (some 0)]

/-- The meaning of the statements: `.keyAbs w k t c` is `p_w += h[s+k] + t_t + uint64(s+c)` (the last two
when present), `.mix a b r` is `p_a += p_b; p_b = (p_b << r) ^ (p_b >> (64-r)) ^ p_a`.  No other
instruction occurs. -/
def step (s : Nat) (K T : Nat → U64) (b : Regs) : Instr → Regs
  | .keyAbs w k t c =>
    upd b w (b w + (K (s + k) + (match t with | some t => T t | none => match c with | some c => BitVec.ofNat 64 (s + c) | none => 0#64)))
  | .mix x y r =>
    let b := upd b x (b x + b y)
    upd b y ((b y <<< r) ^^^ (b y >>> (64 - r)) ^^^ b x)
  | _ => b

/-- Straight-line code. -/
def exec (s : Nat) (K T : Nat → U64) (l : List Instr) (b : Regs) : Regs := l.foldl (step s K T) b

/-- `ubi` of digest256.go:119-531 from the tweak on: the new `d.s`. -/
def core256 (h : List U64) (t0 t1 : U64) (m : List U64) : List U64 :=
  let h4 := (load h 0 ^^^ load h 1) ^^^ (load h 2 ^^^ load h 3) ^^^ 0x1BD11BDAA9FC1A22
  let p := exec 0 (load (h ++ [h4])) (load [t0, t1, t0 ^^^ t1]) ubi256 (load m)
  List.zipWith (· ^^^ ·) m ((List.range 4).map p)

/-- One iteration of the loop of digest512.go:157-250: the registers and `(t0, t1, t2)`. -/
def iter512 (K : Nat → U64) (st : Regs × U64 × U64 × U64) (u : Nat) : Regs × U64 × U64 × U64 :=
  let s := 2 * u
  let T := load [st.2.1, st.2.2.1, st.2.2.2]
  let b := exec s K T ubi512B (exec s K T ubi512A st.1)
  (b, st.2.2.2, st.2.1, st.2.2.1)

/-- `ubi` of digest512.go:119-271 from the tweak on: the new `h[0..7]`.  The words `h[8..26]` are set
before they are read (lines 144-155): `h[8]` is the parity and `h[i] = h[i-9]` from there. -/
def core512 (h : List U64) (t0 t1 : U64) (m : List U64) : List U64 :=
  let h8 := ((load h 0 ^^^ load h 1) ^^^ (load h 2 ^^^ load h 3)) ^^^ ((load h 4 ^^^ load h 5) ^^^ (load h 6 ^^^ load h 7)) ^^^ 0x1BD11BDAA9FC1A22
  let hx := h ++ [h8]
  let K := load (hx ++ hx ++ hx)
  let st := forLoop 0 9 (iter512 K) (load m, t0, t1, t0 ^^^ t1)
  let p := exec 18 K (load [st.2.1, st.2.2.1, st.2.2.2]) ubi512Fin st.1
  List.zipWith (· ^^^ ·) m ((List.range 8).map p)

/-- The two files, which differ in the number of words, in `ubi` and in the shifts of the block count. -/
structure Code where
  n : Nat
  core : List U64 → U64 → U64 → List U64 → List U64
  lg : Nat

/-- digest256.go -/
def code256 : Code := { n := 4, core := core256, lg := 5 }
/-- digest512.go -/
def code512 : Code := { n := 8, core := core512, lg := 6 }

/-- `ubi(etype, extra)` on the chaining value, with the block count given (digest256.go:119-142, digest512.go:119-148). -/
def ubi (k : Code) (s : List U64) (bcount : U64) (etype extra : Nat) (x : Bytes) : List U64 :=
  let t0 := (bcount <<< k.lg) + BitVec.ofNat 64 extra
  let t1 := (bcount >>> (64 - k.lg)) + (BitVec.ofNat 64 etype <<< 55)
  k.core s t0 t1 (bytesToBlock k.n x)

/-- The body of the loop of `Write` (digest512.go:58-68) on the chaining value and the block count. -/
def absorb (k : Code) (st : List U64 × U64) (x : Bytes) : List U64 × U64 :=
  let etype := if st.2 = 0 then 224 else 96
  let bcount := st.2 + 1
  (ubi k st.1 bcount etype 0 x, bcount)

/-- `digest256`/`digest512` (digest512.go:12-22); the field `len` is written and never read. -/
structure Digest where
  st : List U64 × U64
  x : Bytes
  nx : Nat
  hs : Nat
  initVal : List U64

/-- `Reset` (digest512.go:34-42); the words of `s` past the first `n` are scratch. -/
def reset (k : Code) (d : Digest) : Digest := { d with st := (d.initVal, 0), x := zeros (8 * k.n), nx := 0 }
/-- `newDigest512` (digest512.go:25-32) -/
def new (k : Code) (hs : Nat) (initVal : List U64) : Digest :=
  reset k { st := (List.replicate k.n 0#64, 0), x := zeros (8 * k.n), nx := 0, hs := hs, initVal := initVal }

/-- `Write` (digest512.go:52-81) -/
def write (k : Code) (d : Digest) (p : Bytes) : Digest :=
  let r := bufWrite (8 * k.n) (absorb k) d.st d.x d.nx p
  { d with st := r.1, x := r.2.1, nx := r.2.2 }

/-- `checkSum` (digest512.go:90-117) -/
def checkSum (k : Code) (d : Digest) : Bytes :=
  let x := d.x.take d.nx ++ zeros (8 * k.n - d.nx)
  let s := if d.st.2 = 0 then ubi k d.st.1 d.st.2 480 d.nx x else ubi k d.st.1 d.st.2 352 d.nx x
  let s := ubi k s 0 510 8 (zeros (8 * k.n))
  goCopy (zeros d.hs) 0 (s.flatMap le64)

/-- The object behind `hash.Hash`. -/
def impl (k : Code) : HashImpl Digest where
  write d p := some (write k d p, p.length)
  sum d b := some (d, b ++ checkSum k d)
  reset := reset k
  size d := d.hs
  blockSize _ := 8 * k.n

/-- sbox.go:3-8 -/
def initVal224 : List U64 := [0xCCD0616248677224, 0xCBA65CF3A92339EF, 0x8CCD69D652FF4B64, 0x398AED7B3AB890B4,
  0x0F59D1B1457D2BD0, 0x6776FE6575D4EB3D, 0x99FBC70E997413E9, 0x9E2CFCCFE1C41EF7]
/-- sbox.go:10-15 -/
def initVal256 : List U64 := [0xCCD044A12FDB3E13, 0xE83590301A79A9EB, 0x55AEA0614F816E6F, 0x2A2767A4AE9B94DB,
  0xEC06025E74DD7683, 0xE7A436CDC4746251, 0xC36FBAF9393AD185, 0x3EEDBA1833EDFC13]
/-- sbox.go:17-22 -/
def initVal384 : List U64 := [0xA3F6C6BF3A75EF5F, 0xB0FEF9CCFD84FAA4, 0x9D77DD663D770CFE, 0xD798CBF3B468FDDA,
  0x1BC4A6668A0E4465, 0x7ED7D434E5807407, 0x548FC1ACD4EC44D6, 0x266E17546AA18FF8]
/-- sbox.go:24-29 -/
def initVal512 : List U64 := [0x4903ADFF749C51CE, 0x0D95DE399746DF03, 0x8FD1934127C79BCE, 0x9A255629FF352CB1,
  0x5DB62599DF6CA7B0, 0xEABE394CA9D5C3F4, 0x991112C71A75B523, 0xAE18A40B660FCC33]

/-- `New224`, `New256`, `New384`, `New512` (skeins.go:14-32) -/
def new224 : Digest := new code512 28 initVal224
/-- skeins.go:19-22 -/
def new256 : Digest := new code512 32 initVal256
/-- skeins.go:24-27 -/
def new384 : Digest := new code512 48 initVal384
/-- skeins.go:29-32 -/
def new512 : Digest := new code512 64 initVal512
/-- `NewHS256` (skeins.go:8-10) -/
def newHS256 (hs : Nat) (iv : List U64) : Digest := new code256 hs iv

end Verif.Skeins
