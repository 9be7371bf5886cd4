import Verif.Basic
/-
Lyra2 with the Blake2b round as reduced permutation (Simplicio et al., as used by Lyra2RE and Lyra2REv2): `T` the time cost, `R` rows, `C` columns of
twelve words.
-/
namespace Verif.Spec.Lyra2

/-- Blake2b's G without message words. -/
def G (a b c d : U64) : U64 × U64 × U64 × U64 :=
  let a := a + b
  let d := (d ^^^ a).rotateRight 32
  let c := c + d
  let b := (b ^^^ c).rotateRight 24
  let a := a + b
  let d := (d ^^^ a).rotateRight 16
  let c := c + d
  let b := (b ^^^ c).rotateRight 63
  (a, b, c, d)

/-- One round on four rows of four words: the columns, then the diagonals. -/
def round (s : List U64) : List U64 :=
  let w := fun i => s.getD i 0#64
  let col := fun i => G (w i) (w (4 + i)) (w (8 + i)) (w (12 + i))
  let a := fun i => (col (i % 4)).1
  let b := fun i => (col (i % 4)).2.1
  let c := fun i => (col (i % 4)).2.2.1
  let d := fun i => (col (i % 4)).2.2.2
  let diag := fun i => G (a i) (b (i + 1)) (c (i + 2)) (d (i + 3))
  (List.range 4).map (fun i => (diag i).1) ++ (List.range 4).map (fun i => (diag ((i + 3) % 4)).2.1) ++
    (List.range 4).map (fun i => (diag ((i + 2) % 4)).2.2.1) ++ (List.range 4).map (fun i => (diag ((i + 1) % 4)).2.2.2)

/-- The full permutation: 12 rounds. -/
def perm (s : List U64) : List U64 := (List.range 12).foldl (fun s _ => round s) s

/-- The first state: eight zero words and the IV of Blake2b. -/
def init : List U64 := List.replicate 8 0#64 ++
  [0x6a09e667f3bcc908#64, 0xbb67ae8584caa73b#64, 0x3c6ef372fe94f82b#64, 0xa54ff53a5f1d36f1#64,
   0x510e527fade682d1#64, 0x9b05688c2b3e6c1f#64, 0x1f83d9abfb41bd6b#64, 0x5be0cd19137e2179#64]

/-- Add `n` words to the state. -/
def absorb (n : Nat) (s : List U64) (b : Nat → U64) : List U64 :=
  (List.range 16).map fun j => if j < n then s.getD j 0#64 ^^^ b j else s.getD j 0#64

/-- The memory: row, column, word. -/
abbrev Mat := Nat → Nat → Nat → U64
/-- Replace one block. -/
def put (M : Mat) (r c : Nat) (b : Nat → U64) : Mat := fun r' c' j => if r' = r ∧ c' = c then b j else M r' c' j

/-- A block of the state, and rotated by one word. -/
def rand (s : List U64) (j : Nat) : U64 := s.getD j 0#64
def rotW (s : List U64) (j : Nat) : U64 := s.getD ((j + 11) % 12) 0#64

/-- `10*1` padding to a multiple of 64 bytes. -/
def pad (m : Bytes) : Bytes :=
  let n := 64 * (m.length / 64 + 1)
  (List.range n).map fun i => if i < m.length then at8 m i else (if i = m.length then 0x80#8 else 0#8) ^^^ (if i = n - 1 then 1#8 else 0#8)

/-- Password, salt and parameters. -/
def input (kLen : Nat) (pwd salt : Bytes) (T R C : Nat) : Bytes :=
  pwd ++ salt ++ ([kLen, pwd.length, salt.length, T, R, C].map fun n => le64 (BitVec.ofNat 64 n)).flatten

/-- Absorb the padded input in blocks of eight words; block `i` starts at word `stride * i` (8 in Lyra2; the code of Lyra2RE version 1 has 64, and words after
the end are zero). -/
def bootstrap (stride : Nat) (m : Bytes) : List U64 :=
  (List.range (m.length / 64 + 1)).foldl (fun s i => perm (absorb 8 s fun j => getLE64 (pad m) (8 * (stride * i + j)))) init

/-- Row 0, from the last column to the first. -/
def row0 (C : Nat) (st : List U64 × Mat) : List U64 × Mat :=
  (List.range C).foldl (fun st i => (round st.1, put st.2 0 (C - 1 - i) (rand st.1))) st
/-- Row 1. -/
def row1 (C : Nat) (st : List U64 × Mat) : List U64 × Mat :=
  (List.range C).foldl (fun st i =>
    let s := round (absorb 12 st.1 (st.2 0 i))
    (s, put st.2 1 (C - 1 - i) fun j => st.2 0 i j ^^^ rand s j)) st
/-- A later row of the setup: `row` from `row - 1`, changing `star`. -/
def setupRow (C row star : Nat) (st : List U64 × Mat) : List U64 × Mat :=
  (List.range C).foldl (fun st i =>
    let M := st.2
    let s := round (absorb 12 st.1 fun j => M (row - 1) i j + M star i j)
    let M' := put M row (C - 1 - i) fun j => M (row - 1) i j ^^^ rand s j
    (s, put M' star i fun j => M' star i j ^^^ rotW s j)) st
/-- The row that is changed when `row` is set up: rows are revisited in windows of `w = 2^k`, `k = log2 row`, with step `w/2 ± 1` (1 in the first window). -/
def star (row : Nat) : Nat :=
  let k := Nat.log2 row
  let step := if k ≤ 1 then 1 else if k % 2 = 0 then 2 ^ (k - 1) + 1 else 2 ^ (k - 1) - 1
  (row - 2 ^ k) * step % 2 ^ k
/-- Setup of all rows. -/
def setup (R C : Nat) (s : List U64) : List U64 × Mat :=
  (List.range (R - 2)).foldl (fun st i => setupRow C (i + 2) (star (i + 2)) st) (row1 C (row0 C (s, fun _ _ _ => 0#64)))

/-- One row of the wandering phase. -/
def wanderRow (C prev star row : Nat) (st : List U64 × Mat) : List U64 × Mat :=
  (List.range C).foldl (fun st i =>
    let M := st.2
    let s := round (absorb 12 st.1 fun j => M prev i j + M star i j)
    let M' := put M row i fun j => M row i j ^^^ rand s j
    (s, put M' star i fun j => M' star i j ^^^ rotW s j)) st

/-- State, memory, previous row, last pseudorandom row. -/
structure Wander where
  (st : List U64 × Mat) (prev star : Nat)

/-- One pass: the rows `0, step, 2 step, ...` modulo `R` until 0 would come again. -/
def pass (R C step : Nat) (w : Wander) : Wander :=
  (List.range (R / Nat.gcd R step)).foldl (fun w k =>
    let star := (w.st.1.getD 0 0#64).toNat % R
    let row := k * step % R
    ⟨wanderRow C w.prev star row w.st, row, star⟩) w

/-- All passes; the step is `R/2 - 1` in odd passes and `-1` in even ones. -/
def wander (T R C : Nat) (w : Wander) : Wander :=
  (List.range T).foldl (fun w t => pass R C (if t % 2 = 0 then R / 2 - 1 else R - 1) w) w

/-- Output of `n` bytes, 96 per permutation. -/
def squeeze (n : Nat) (s : List U64) : Bytes :=
  ((List.range (n / 96 + 1)).flatMap fun i => ((List.range 12).flatMap fun j => le64 (((List.range i).foldl (fun s _ => perm s) s).getD j 0#64))).take n

/-- The key of `kLen` bytes. -/
def key (stride kLen : Nat) (pwd salt : Bytes) (T R C : Nat) : Bytes :=
  let w := wander T R C ⟨setup R C (bootstrap stride (input kLen pwd salt T R C)), R - 1, star R⟩
  squeeze kLen (perm (absorb 12 w.st.1 (w.st.2 w.star 0)))

end Verif.Spec.Lyra2
