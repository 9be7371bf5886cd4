import Verif.Basic
import Verif.Words
/-
Model of skein/threefish.  The unrolled bodies of Encrypt*/Decrypt* are transcribed statement by
statement into instruction lists (tools/gen_threefish.py, which checks the shape of every statement
it reads); the instructions are given their meaning below.
-/
namespace Verif.Threefish

/-- The local variables `b0`, `b1`, ... -/
abbrev Regs := Nat → U64
/-- Assignment to `b_i`. -/
def upd (b : Regs) (i : Nat) (x : U64) : Regs := fun k => if k = i then x else b k

/-- A statement group of the unrolled code. -/
inductive Instr where
  /-- `b_w += keys[(r+k)%n1] + tweak[(r+t)%3] + uint64(r)` (the last two when present) -/
  | key (w k : Nat) (t : Option Nat) (c : Bool)
  /-- `b_w -= ...` -/
  | unkey (w k : Nat) (t : Option Nat) (c : Bool)
  /-- `b_w += keys[k] + tweak[t] + uint64(c)` -/
  | keyAbs (w k : Nat) (t c : Option Nat)
  /-- `b_w -= keys[k] + tweak[t] + uint64(c)` -/
  | unkeyAbs (w k : Nat) (t c : Option Nat)
  /-- `b_a += b_b; b_b = (b_b << rot | b_b >> (64-rot)) ^ b_a` -/
  | mix (a b rot : Nat)
  /-- `tmp = b_b ^ b_a; b_b = tmp >> rot | tmp << (64-rot); b_a -= b_b` -/
  | unmix (a b rot : Nat)
  deriving DecidableEq

/-- The key and tweak words added by a key statement. -/
def keyVal (n1 : Nat) (K T : Nat → U64) (r k : Nat) (t : Option Nat) (c : Bool) : U64 :=
  K ((r + k) % n1) + (match t with | some t => T ((r + t) % 3) | none => if c then BitVec.ofNat 64 r else 0#64)
/-- The same with literal indices. -/
def keyValAbs (K T : Nat → U64) (k : Nat) (t c : Option Nat) : U64 :=
  K k + (match t with | some t => T t | none => match c with | some c => BitVec.ofNat 64 c | none => 0#64)

/-- One statement group; `n1` is the number of key words, `r` the loop variable. -/
def step (n1 : Nat) (K T : Nat → U64) (r : Nat) (b : Regs) : Instr → Regs
  | .key w k t c => upd b w (b w + keyVal n1 K T r k t c)
  | .unkey w k t c => upd b w (b w - keyVal n1 K T r k t c)
  | .keyAbs w k t c => upd b w (b w + keyValAbs K T k t c)
  | .unkeyAbs w k t c => upd b w (b w - keyValAbs K T k t c)
  | .mix x y rot =>
    let b := upd b x (b x + b y)
    upd b y (((b y <<< rot) ||| (b y >>> (64 - rot))) ^^^ b x)
  | .unmix x y rot =>
    let tmp := b y ^^^ b x
    let b := upd b y ((tmp >>> rot) ||| (tmp <<< (64 - rot)))
    upd b x (b x - b y)

/-- A straight-line piece of code. -/
def exec (n1 : Nat) (K T : Nat → U64) (r : Nat) (l : List Instr) (b : Regs) : Regs :=
  l.foldl (step n1 K T r) b

/-- `Encrypt256`, threefish256_ref.go:51-75 (inside `for r := 0; r < 17; r++`). -/
def enc256A : List Instr := [
  .key 0 0 none false, .key 1 1 (some 0) false, .key 2 2 (some 1) false, .key 3 3 none true,
  .mix 0 1 14, .mix 2 3 16, .mix 0 3 52, .mix 2 1 57,
  .mix 0 1 23, .mix 2 3 40, .mix 0 3 5, .mix 2 1 37]

/-- `Encrypt256`, threefish256_ref.go:77-101 (inside `for r := 0; r < 17; r++`). -/
def enc256B : List Instr := [
  .key 0 0 none false, .key 1 1 (some 0) false, .key 2 2 (some 1) false, .key 3 3 none true,
  .mix 0 1 25, .mix 2 3 33, .mix 0 3 46, .mix 2 1 12,
  .mix 0 1 58, .mix 2 3 22, .mix 0 3 32, .mix 2 1 32]

/-- `Encrypt256`, threefish256_ref.go:103-108 (after the loop). -/
def enc256Fin : List Instr := [
  .keyAbs 0 3 none none, .keyAbs 1 4 (some 0) none, .keyAbs 2 0 (some 1) none, .keyAbs 3 1 none (some 18)]

/-- `Decrypt256`, threefish256_ref.go:120-152 (inside `for r := 18; r > 1; r--`). -/
def dec256A : List Instr := [
  .unkey 0 0 none false, .unkey 1 1 (some 0) false, .unkey 2 2 (some 1) false, .unkey 3 3 none true,
  .unmix 2 1 32, .unmix 0 3 32, .unmix 2 3 22, .unmix 0 1 58,
  .unmix 2 1 12, .unmix 0 3 46, .unmix 2 3 33, .unmix 0 1 25]

/-- `Decrypt256`, threefish256_ref.go:154-186 (inside `for r := 18; r > 1; r--`). -/
def dec256B : List Instr := [
  .unkey 0 0 none false, .unkey 1 1 (some 0) false, .unkey 2 2 (some 1) false, .unkey 3 3 none true,
  .unmix 2 1 37, .unmix 0 3 5, .unmix 2 3 40, .unmix 0 1 23,
  .unmix 2 1 57, .unmix 0 3 52, .unmix 2 3 16, .unmix 0 1 14]

/-- `Decrypt256`, threefish256_ref.go:188-193 (after the loop). -/
def dec256Fin : List Instr := [
  .unkeyAbs 0 0 none none, .unkeyAbs 1 1 (some 0) none, .unkeyAbs 2 2 (some 1) none, .unkeyAbs 3 3 none none]

/-- `Encrypt512`, threefish512_ref.go:52-96 (inside `for r := 0; r < 17; r++`). -/
def enc512A : List Instr := [
  .key 0 0 none false, .key 1 1 none false, .key 2 2 none false, .key 3 3 none false,
  .key 4 4 none false, .key 5 5 (some 0) false, .key 6 6 (some 1) false, .key 7 7 none true,
  .mix 0 1 46, .mix 2 3 36, .mix 4 5 19, .mix 6 7 37,
  .mix 2 1 33, .mix 4 7 27, .mix 6 5 14, .mix 0 3 42,
  .mix 4 1 17, .mix 6 3 49, .mix 0 5 36, .mix 2 7 39,
  .mix 6 1 44, .mix 0 7 9, .mix 2 5 54, .mix 4 3 56]

/-- `Encrypt512`, threefish512_ref.go:98-142 (inside `for r := 0; r < 17; r++`). -/
def enc512B : List Instr := [
  .key 0 0 none false, .key 1 1 none false, .key 2 2 none false, .key 3 3 none false,
  .key 4 4 none false, .key 5 5 (some 0) false, .key 6 6 (some 1) false, .key 7 7 none true,
  .mix 0 1 39, .mix 2 3 30, .mix 4 5 34, .mix 6 7 24,
  .mix 2 1 13, .mix 4 7 50, .mix 6 5 10, .mix 0 3 17,
  .mix 4 1 25, .mix 6 3 29, .mix 0 5 39, .mix 2 7 43,
  .mix 6 1 8, .mix 0 7 35, .mix 2 5 56, .mix 4 3 22]

/-- `Encrypt512`, threefish512_ref.go:144-153 (after the loop). -/
def enc512Fin : List Instr := [
  .keyAbs 0 0 none none, .keyAbs 1 1 none none, .keyAbs 2 2 none none, .keyAbs 3 3 none none,
  .keyAbs 4 4 none none, .keyAbs 5 5 (some 0) none, .keyAbs 6 6 (some 1) none, .keyAbs 7 7 none (some 18)]

/-- `Decrypt512`, threefish512_ref.go:167-227 (inside `for r := 18; r > 1; r--`). -/
def dec512A : List Instr := [
  .unkey 0 0 none false, .unkey 1 1 none false, .unkey 2 2 none false, .unkey 3 3 none false,
  .unkey 4 4 none false, .unkey 5 5 (some 0) false, .unkey 6 6 (some 1) false, .unkey 7 7 none true,
  .unmix 4 3 22, .unmix 2 5 56, .unmix 0 7 35, .unmix 6 1 8,
  .unmix 2 7 43, .unmix 0 5 39, .unmix 6 3 29, .unmix 4 1 25,
  .unmix 0 3 17, .unmix 6 5 10, .unmix 4 7 50, .unmix 2 1 13,
  .unmix 6 7 24, .unmix 4 5 34, .unmix 2 3 30, .unmix 0 1 39]

/-- `Decrypt512`, threefish512_ref.go:229-289 (inside `for r := 18; r > 1; r--`). -/
def dec512B : List Instr := [
  .unkey 0 0 none false, .unkey 1 1 none false, .unkey 2 2 none false, .unkey 3 3 none false,
  .unkey 4 4 none false, .unkey 5 5 (some 0) false, .unkey 6 6 (some 1) false, .unkey 7 7 none true,
  .unmix 4 3 56, .unmix 2 5 54, .unmix 0 7 9, .unmix 6 1 44,
  .unmix 2 7 39, .unmix 0 5 36, .unmix 6 3 49, .unmix 4 1 17,
  .unmix 0 3 42, .unmix 6 5 14, .unmix 4 7 27, .unmix 2 1 33,
  .unmix 6 7 37, .unmix 4 5 19, .unmix 2 3 36, .unmix 0 1 46]

/-- `Decrypt512`, threefish512_ref.go:291-300 (after the loop). -/
def dec512Fin : List Instr := [
  .unkeyAbs 0 0 none none, .unkeyAbs 1 1 none none, .unkeyAbs 2 2 none none, .unkeyAbs 3 3 none none,
  .unkeyAbs 4 4 none none, .unkeyAbs 5 5 (some 0) none, .unkeyAbs 6 6 (some 1) none, .unkeyAbs 7 7 none none]

/-- `Encrypt1024`, threefish1024_ref.go:55-139 (inside `for r := 0; r < 19; r++`). -/
def enc1024A : List Instr := [
  .key 0 0 none false, .key 1 1 none false, .key 2 2 none false, .key 3 3 none false,
  .key 4 4 none false, .key 5 5 none false, .key 6 6 none false, .key 7 7 none false,
  .key 8 8 none false, .key 9 9 none false, .key 10 10 none false, .key 11 11 none false,
  .key 12 12 none false, .key 13 13 (some 0) false, .key 14 14 (some 1) false, .key 15 15 none true,
  .mix 0 1 24, .mix 2 3 13, .mix 4 5 8, .mix 6 7 47,
  .mix 8 9 8, .mix 10 11 17, .mix 12 13 22, .mix 14 15 37,
  .mix 0 9 38, .mix 2 13 19, .mix 6 11 10, .mix 4 15 55,
  .mix 10 7 49, .mix 12 3 18, .mix 14 5 23, .mix 8 1 52,
  .mix 0 7 33, .mix 2 5 4, .mix 4 3 51, .mix 6 1 13,
  .mix 12 15 34, .mix 14 13 41, .mix 8 11 59, .mix 10 9 17,
  .mix 0 15 5, .mix 2 11 20, .mix 6 13 48, .mix 4 9 41,
  .mix 14 1 47, .mix 8 5 28, .mix 10 3 16, .mix 12 7 25]

/-- `Encrypt1024`, threefish1024_ref.go:141-225 (inside `for r := 0; r < 19; r++`). -/
def enc1024B : List Instr := [
  .key 0 0 none false, .key 1 1 none false, .key 2 2 none false, .key 3 3 none false,
  .key 4 4 none false, .key 5 5 none false, .key 6 6 none false, .key 7 7 none false,
  .key 8 8 none false, .key 9 9 none false, .key 10 10 none false, .key 11 11 none false,
  .key 12 12 none false, .key 13 13 (some 0) false, .key 14 14 (some 1) false, .key 15 15 none true,
  .mix 0 1 41, .mix 2 3 9, .mix 4 5 37, .mix 6 7 31,
  .mix 8 9 12, .mix 10 11 47, .mix 12 13 44, .mix 14 15 30,
  .mix 0 9 16, .mix 2 13 34, .mix 6 11 56, .mix 4 15 51,
  .mix 10 7 4, .mix 12 3 53, .mix 14 5 42, .mix 8 1 41,
  .mix 0 7 31, .mix 2 5 44, .mix 4 3 47, .mix 6 1 46,
  .mix 12 15 19, .mix 14 13 42, .mix 8 11 44, .mix 10 9 25,
  .mix 0 15 9, .mix 2 11 48, .mix 6 13 35, .mix 4 9 52,
  .mix 14 1 23, .mix 8 5 31, .mix 10 3 37, .mix 12 7 20]

/-- `Encrypt1024`, threefish1024_ref.go:227-244 (after the loop). -/
def enc1024Fin : List Instr := [
  .keyAbs 0 3 none none, .keyAbs 1 4 none none, .keyAbs 2 5 none none, .keyAbs 3 6 none none,
  .keyAbs 4 7 none none, .keyAbs 5 8 none none, .keyAbs 6 9 none none, .keyAbs 7 10 none none,
  .keyAbs 8 11 none none, .keyAbs 9 12 none none, .keyAbs 10 13 none none, .keyAbs 11 14 none none,
  .keyAbs 12 15 none none, .keyAbs 13 16 (some 2) none, .keyAbs 14 0 (some 0) none, .keyAbs 15 1 none (some 20)]

/-- `Decrypt1024`, threefish1024_ref.go:262-378 (inside `for r := 20; r > 1; r--`). -/
def dec1024A : List Instr := [
  .unkey 0 0 none false, .unkey 1 1 none false, .unkey 2 2 none false, .unkey 3 3 none false,
  .unkey 4 4 none false, .unkey 5 5 none false, .unkey 6 6 none false, .unkey 7 7 none false,
  .unkey 8 8 none false, .unkey 9 9 none false, .unkey 10 10 none false, .unkey 11 11 none false,
  .unkey 12 12 none false, .unkey 13 13 (some 0) false, .unkey 14 14 (some 1) false, .unkey 15 15 none true,
  .unmix 12 7 20, .unmix 10 3 37, .unmix 8 5 31, .unmix 14 1 23,
  .unmix 4 9 52, .unmix 6 13 35, .unmix 2 11 48, .unmix 0 15 9,
  .unmix 10 9 25, .unmix 8 11 44, .unmix 14 13 42, .unmix 12 15 19,
  .unmix 6 1 46, .unmix 4 3 47, .unmix 2 5 44, .unmix 0 7 31,
  .unmix 8 1 41, .unmix 14 5 42, .unmix 12 3 53, .unmix 10 7 4,
  .unmix 4 15 51, .unmix 6 11 56, .unmix 2 13 34, .unmix 0 9 16,
  .unmix 14 15 30, .unmix 12 13 44, .unmix 10 11 47, .unmix 8 9 12,
  .unmix 6 7 31, .unmix 4 5 37, .unmix 2 3 9, .unmix 0 1 41]

/-- `Decrypt1024`, threefish1024_ref.go:380-496 (inside `for r := 20; r > 1; r--`). -/
def dec1024B : List Instr := [
  .unkey 0 0 none false, .unkey 1 1 none false, .unkey 2 2 none false, .unkey 3 3 none false,
  .unkey 4 4 none false, .unkey 5 5 none false, .unkey 6 6 none false, .unkey 7 7 none false,
  .unkey 8 8 none false, .unkey 9 9 none false, .unkey 10 10 none false, .unkey 11 11 none false,
  .unkey 12 12 none false, .unkey 13 13 (some 0) false, .unkey 14 14 (some 1) false, .unkey 15 15 none true,
  .unmix 12 7 25, .unmix 10 3 16, .unmix 8 5 28, .unmix 14 1 47,
  .unmix 4 9 41, .unmix 6 13 48, .unmix 2 11 20, .unmix 0 15 5,
  .unmix 10 9 17, .unmix 8 11 59, .unmix 14 13 41, .unmix 12 15 34,
  .unmix 6 1 13, .unmix 4 3 51, .unmix 2 5 4, .unmix 0 7 33,
  .unmix 8 1 52, .unmix 14 5 23, .unmix 12 3 18, .unmix 10 7 49,
  .unmix 4 15 55, .unmix 6 11 10, .unmix 2 13 19, .unmix 0 9 38,
  .unmix 14 15 37, .unmix 12 13 22, .unmix 10 11 17, .unmix 8 9 8,
  .unmix 6 7 47, .unmix 4 5 8, .unmix 2 3 13, .unmix 0 1 24]

/-- `Decrypt1024`, threefish1024_ref.go:498-515 (after the loop). -/
def dec1024Fin : List Instr := [
  .unkeyAbs 0 0 none none, .unkeyAbs 1 1 none none, .unkeyAbs 2 2 none none, .unkeyAbs 3 3 none none,
  .unkeyAbs 4 4 none none, .unkeyAbs 5 5 none none, .unkeyAbs 6 6 none none, .unkeyAbs 7 7 none none,
  .unkeyAbs 8 8 none none, .unkeyAbs 9 9 none none, .unkeyAbs 10 10 none none, .unkeyAbs 11 11 none none,
  .unkeyAbs 12 12 none none, .unkeyAbs 13 13 (some 0) none, .unkeyAbs 14 14 (some 1) none, .unkeyAbs 15 15 none none]

/-- One of the three ciphers: word count, the last value of the loop variable, and the code. -/
structure Code where
  n : Nat
  last : Nat
  encA : List Instr
  encB : List Instr
  encFin : List Instr
  decA : List Instr
  decB : List Instr
  decFin : List Instr

/-- threefish256_ref.go. -/
def code256 : Code := ⟨4, 18, enc256A, enc256B, enc256Fin, dec256A, dec256B, dec256Fin⟩
/-- threefish512_ref.go. -/
def code512 : Code := ⟨8, 18, enc512A, enc512B, enc512Fin, dec512A, dec512B, dec512Fin⟩
/-- threefish1024_ref.go. -/
def code1024 : Code := ⟨16, 20, enc1024A, enc1024B, enc1024Fin, dec1024A, dec1024B, dec1024Fin⟩

/-- Load the words of a block (threefish256_ref.go:49 and its siblings). -/
def load (l : List U64) : Nat → U64 := fun i => l.getD i 0#64

/-- `Encrypt256/512/1024` (threefish256_ref.go:47-110, threefish512_ref.go:47-156,
threefish1024_ref.go:48-249): the loop runs for r = 0, 2, ..., last-2, with `r++` in the middle. -/
def encryptWords (c : Code) (block keys tweak : List U64) : List U64 :=
  let K := load keys
  let T := load tweak
  let b := forLoop 0 (c.last / 2) (fun b i =>
    exec (c.n + 1) K T (2 * i + 1) c.encB (exec (c.n + 1) K T (2 * i) c.encA b)) (load block)
  let b := exec (c.n + 1) K T 0 c.encFin b
  (List.range c.n).map b

/-- `Decrypt256/512/1024` (threefish256_ref.go:115-195, threefish512_ref.go:161-303,
threefish1024_ref.go:254-520): the loop runs for r = last, last-2, ..., 2, with `r--` in the middle. -/
def decryptWords (c : Code) (block keys tweak : List U64) : List U64 :=
  let K := load keys
  let T := load tweak
  let b := forLoop 0 (c.last / 2) (fun b i =>
    exec (c.n + 1) K T (c.last - 2 * i - 1) c.decB (exec (c.n + 1) K T (c.last - 2 * i) c.decA b)) (load block)
  let b := exec (c.n + 1) K T 0 c.decFin b
  (List.range c.n).map b

/-- `C240` (threefish.go:19). -/
def C240 : U64 := 0x1bd11bdaa9fc1a22

/-- `bytesToBlock256/512/1024` (threefish_ref.go:5-69; threefish_amd64.go does the same by
reinterpreting memory on a little-endian machine). -/
def bytesToBlock (n : Nat) (src : Bytes) : List U64 := (List.range n).map fun i => getLE64 src (8 * i)
/-- `block256ToBytes` and its siblings (threefish_ref.go:13-25). -/
def blockToBytes (block : List U64) : Bytes := block.flatMap le64

/-- A cipher object (threefish.go:61-89). -/
structure Cipher where
  code : Code
  keys : List U64
  tweak : List U64

/-- `newCipher256/512/1024` (threefish256_ref.go:23-42 and siblings). -/
def newCipher (c : Code) (tweak key : Bytes) : Cipher :=
  let t0 := getLE64 tweak 0
  let t1 := getLE64 tweak 8
  let ks := bytesToBlock c.n key
  { code := c, keys := ks ++ [ks.foldl (· ^^^ ·) C240], tweak := [t0, t1, t0 ^^^ t1] }

/-- `NewCipher` (threefish.go:37-48); `none` is the error. -/
def new (tweak key : Bytes) : Option Cipher :=
  if key.length = 32 then some (newCipher code256 tweak key)
  else if key.length = 64 then some (newCipher code512 tweak key)
  else if key.length = 128 then some (newCipher code1024 tweak key)
  else none

/-- `Encrypt(dst, src)`: what is written to `dst` (threefish256_ref.go:3-11). -/
def Cipher.encrypt (c : Cipher) (src : Bytes) : Bytes :=
  blockToBytes (encryptWords c.code (bytesToBlock c.code.n src) c.keys c.tweak)
/-- `Decrypt(dst, src)` (threefish256_ref.go:13-21). -/
def Cipher.decrypt (c : Cipher) (src : Bytes) : Bytes :=
  blockToBytes (decryptWords c.code (bytesToBlock c.code.n src) c.keys c.tweak)

end Verif.Threefish
