import Verif.Padding
import Verif.Words
/-
Blue Midnight Wish, from the round-2 SHA-3 submission: the functions f0, f1 and f2, the padding, the two
invocations of the compression function.  Written over the word size; the tables are those of the submission.
-/
namespace Verif.Spec.BMW

/-- Parameters that depend on the word size: the rotations/shifts of s0 … s3, the rotations r1 … r7, the constant of K_j. -/
structure P (w : Nat) where
  s : List (Nat × Nat × Nat × Nat)
  r : List Nat
  K : BitVec w

def P32 : P 32 := ⟨[(1, 3, 4, 19), (1, 2, 8, 23), (2, 1, 12, 25), (2, 2, 15, 29)], [3, 7, 13, 16, 19, 23, 27], 0x05555555⟩
def P64 : P 64 := ⟨[(1, 3, 4, 37), (1, 2, 13, 43), (2, 1, 19, 53), (2, 2, 28, 59)], [5, 11, 27, 32, 37, 43, 53], 0x0555555555555555⟩

variable {w : Nat} (p : P w)

/-- s0, …, s5 -/
def sfun (k : Nat) (x : BitVec w) : BitVec w :=
  if k = 4 then (x >>> 1) ^^^ x
  else if k = 5 then (x >>> 2) ^^^ x
  else
    let t := p.s.getD k (0, 0, 0, 0)
    (x >>> t.1) ^^^ (x <<< t.2.1) ^^^ x.rotateLeft t.2.2.1 ^^^ x.rotateLeft t.2.2.2

/-- The signed sums W_0, …, W_15 of the words M_j xor H_j (+ is true). -/
def wTable : List (List (Bool × Nat)) :=
  [[(true, 5), (false, 7), (true, 10), (true, 13), (true, 14)],
   [(true, 6), (false, 8), (true, 11), (true, 14), (false, 15)],
   [(true, 0), (true, 7), (true, 9), (false, 12), (true, 15)],
   [(true, 0), (false, 1), (true, 8), (false, 10), (true, 13)],
   [(true, 1), (true, 2), (true, 9), (false, 11), (false, 14)],
   [(true, 3), (false, 2), (true, 10), (false, 12), (true, 15)],
   [(true, 4), (false, 0), (false, 3), (false, 11), (true, 13)],
   [(true, 1), (false, 4), (false, 5), (false, 12), (false, 14)],
   [(true, 2), (false, 5), (false, 6), (true, 13), (false, 15)],
   [(true, 0), (false, 3), (true, 6), (false, 7), (true, 14)],
   [(true, 8), (false, 1), (false, 4), (false, 7), (true, 15)],
   [(true, 8), (false, 0), (false, 2), (false, 5), (true, 9)],
   [(true, 1), (true, 3), (false, 6), (false, 9), (true, 10)],
   [(true, 2), (true, 4), (true, 7), (true, 10), (true, 11)],
   [(true, 3), (false, 5), (true, 8), (false, 11), (false, 12)],
   [(true, 12), (false, 4), (false, 6), (false, 9), (true, 13)]]

def W (m h : Nat → BitVec w) (i : Nat) : BitVec w :=
  (wTable.getD i []).foldl (fun a t => if t.1 then a + (m t.2 ^^^ h t.2) else a - (m t.2 ^^^ h t.2)) 0

/-- AddElement(j), for the word Q_{j+16} -/
def addElement (m h : Nat → BitVec w) (j : Nat) : BitVec w :=
  let rot (k : Nat) := (m (k % 16)).rotateLeft (k % 16 + 1)
  (rot j + rot (j + 3) - rot (j + 10) + BitVec.ofNat w (j + 16) * p.K) ^^^ h ((j + 7) % 16)

def sum (l : List (BitVec w)) : BitVec w := l.foldl (· + ·) 0

/-- expand1(i) -/
def expand1 (m h q : Nat → BitVec w) (i : Nat) : BitVec w :=
  sum ((List.range 16).map fun k => sfun p ((k + 1) % 4) (q (i - 16 + k))) + addElement p m h (i - 16)

/-- expand2(i) -/
def expand2 (m h q : Nat → BitVec w) (i : Nat) : BitVec w :=
  sum ((List.range 14).map fun k => if k % 2 = 0 then q (i - 16 + k) else (q (i - 16 + k)).rotateLeft (p.r.getD (k / 2) 0)) +
    sfun p 4 (q (i - 2)) + sfun p 5 (q (i - 1)) + addElement p m h (i - 16)

/-- The word Q_i from the words before it: f0 gives sixteen, f1 two by expand1 and fourteen by expand2. -/
def qWord (m h q : Nat → BitVec w) (i : Nat) : BitVec w :=
  if i < 16 then sfun p (i % 5) (W m h i) + h ((i + 1) % 16)
  else if i < 18 then expand1 p m h q i
  else expand2 p m h q i

/-- The quadruple pipe Q_0, …, Q_{n-1}. -/
def pipe (m h : Nat → BitVec w) : Nat → List (BitVec w)
  | 0 => []
  | n + 1 => pipe m h n ++ [qWord p m h (fun i => (pipe m h n).getD i 0) n]

/-- Shift left by a non-negative, right by a negative amount. -/
def sh (k : Int) (x : BitVec w) : BitVec w := if k < 0 then x >>> k.natAbs else x <<< k.natAbs

/-- Shifts of XH, of Q_{16+i} (i < 8) and of XL (8 ≤ i). -/
def shXH : List Int := [5, -7, -5, -1, -3, 6, -4, -11]
def shQ : List Int := [-5, 8, 5, 5, 0, -6, 6, 2]
def shXL : List Int := [8, -6, 6, 4, -3, -4, -7, -2]

def XL (q : Nat → BitVec w) : BitVec w := ((List.range 8).map fun i => q (16 + i)).foldl (· ^^^ ·) 0
def XH (q : Nat → BitVec w) : BitVec w := ((List.range 8).map fun i => q (24 + i)).foldl (· ^^^ ·) (XL q)

def fold1 (m q : Nat → BitVec w) (i : Nat) : BitVec w :=
  (sh (shXH.getD i 0) (XH q) ^^^ sh (shQ.getD i 0) (q (16 + i)) ^^^ m i) + (XL q ^^^ q (24 + i) ^^^ q i)
def fold2 (m q : Nat → BitVec w) (i : Nat) : BitVec w :=
  (fold1 m q ((i - 4) % 8)).rotateLeft (i + 1) + (XH q ^^^ q (16 + i) ^^^ m i) + (sh (shXL.getD (i - 8) 0) (XL q) ^^^ q (16 + (i + 7) % 8) ^^^ q i)

/-- The compression function on the sixteen words of the chaining value and of the message. -/
def compress (h m : List (BitVec w)) : List (BitVec w) :=
  let m' := fun i => m.getD i 0
  let q := fun i => (pipe p m' (fun i => h.getD i 0) 32).getD i 0
  (List.range 16).map fun i => if i < 8 then fold1 m' q i else fold2 m' q i

/-- Padding: 1 bit, zero bits, the bit length on 64 bits, little endian. -/
def pad (B : Nat) (m : Bytes) : Bytes := mdPad B 0x80 (le64 (BitVec.ofNat 64 (8 * m.length))) m

def words32 (b : Bytes) : List U32 := (List.range 16).map fun i => getLE32 b (4 * i)
def words64 (b : Bytes) : List U64 := (List.range 16).map fun i => getLE64 b (8 * i)

/-- The bytes start, start+1, …  as the words of an initial value. -/
def iv32 (start : Nat) : List U32 := (List.range 16).map fun i => BitVec.ofNat 32 ((List.range 4).foldl (fun a k => a * 256 + (start + 4 * i + k)) 0)
def iv64 (start : Nat) : List U64 := (List.range 16).map fun i => BitVec.ofNat 64 ((List.range 8).foldl (fun a k => a * 256 + (start + 8 * i + k)) 0)
def const32 : List U32 := (List.range 16).map fun i => 0xaaaaaaa0 + BitVec.ofNat 32 i
def const64 : List U64 := (List.range 16).map fun i => 0xaaaaaaaaaaaaaaa0 + BitVec.ofNat 64 i

/-- BMW-224 and BMW-256; `n` is the length of the digest in bytes. -/
def bmw32 (iv : List U32) (n : Nat) (m : Bytes) : Bytes :=
  let h := (fullBlocks 64 (pad 64 m)).foldl (fun h b => compress P32 h (words32 b)) iv
  ((compress P32 const32 h).drop (16 - n / 4)).flatMap le32
/-- BMW-384 and BMW-512 -/
def bmw64 (iv : List U64) (n : Nat) (m : Bytes) : Bytes :=
  let h := (fullBlocks 128 (pad 128 m)).foldl (fun h b => compress P64 h (words64 b)) iv
  ((compress P64 const64 h).drop (16 - n / 8)).flatMap le64

def bmw224 := bmw32 (iv32 0) 28
def bmw256 := bmw32 (iv32 64) 32
def bmw384 := bmw64 (iv64 0) 48
def bmw512 := bmw64 (iv64 128) 64

end Verif.Spec.BMW
