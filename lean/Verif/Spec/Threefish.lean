import Verif.Basic
/-
Threefish, as in "The Skein Hash Function Family" (version 1.3), section 3.3.
-/
namespace Verif.Spec.Threefish

/-- Table 4: the rotation constants `R_{d,j}`, `d` modulo 8. -/
def rot : Nat → List (List Nat)
  | 4 => [[14, 16], [52, 57], [23, 40], [5, 37], [25, 33], [46, 12], [58, 22], [32, 32]]
  | 8 => [[46, 36, 19, 37], [33, 27, 14, 42], [17, 49, 36, 39], [44, 9, 54, 56],
          [39, 30, 34, 24], [13, 50, 10, 17], [25, 29, 39, 43], [8, 35, 56, 22]]
  | _ => [[24, 13, 8, 47, 8, 17, 22, 37], [38, 19, 10, 55, 49, 18, 23, 52],
          [33, 4, 51, 13, 34, 41, 59, 17], [5, 20, 48, 41, 47, 28, 16, 25],
          [41, 9, 37, 31, 12, 47, 44, 30], [16, 34, 56, 51, 4, 53, 42, 41],
          [31, 44, 47, 46, 19, 42, 44, 25], [9, 48, 35, 52, 23, 31, 37, 20]]

/-- Table 3: the word permutation. -/
def perm : Nat → List Nat
  | 4 => [0, 3, 2, 1]
  | 8 => [2, 1, 4, 7, 6, 5, 0, 3]
  | _ => [0, 9, 2, 13, 6, 11, 4, 15, 10, 7, 12, 3, 14, 5, 8, 1]

/-- The number of rounds. -/
def rounds (n : Nat) : Nat := if n = 16 then 80 else 72

/-- The key-schedule constant. -/
def C240 : U64 := 0x1BD11BDAA9FC1A22

/-- The extended key: `n` key words and their parity. -/
def extKey (n : Nat) (key : List U64) (i : Nat) : U64 :=
  if i < n then key.getD i 0#64 else key.foldl (· ^^^ ·) C240
/-- The extended tweak. -/
def extTweak (t0 t1 : U64) (i : Nat) : U64 := if i = 0 then t0 else if i = 1 then t1 else t0 ^^^ t1

/-- Word `i` of subkey `s`. -/
def subkey (n : Nat) (K T : Nat → U64) (s i : Nat) : U64 :=
  K ((s + i) % (n + 1)) +
    (if i = n - 3 then T (s % 3) else if i = n - 2 then T ((s + 1) % 3) else if i = n - 1 then BitVec.ofNat 64 s else 0#64)

/-- The MIX function on the pair `(x0, x1)`. -/
def mix (r : Nat) (x0 x1 : U64) : U64 × U64 := (x0 + x1, x1.rotateLeft r ^^^ (x0 + x1))

/-- One round `d`: the subkey every fourth round, MIX on the pairs, the permutation. -/
def round (n : Nat) (K T : Nat → U64) (d : Nat) (v : Nat → U64) : Nat → U64 :=
  let e := fun i => if d % 4 = 0 then v i + subkey n K T (d / 4) i else v i
  let f := fun i =>
    let p := mix (((rot n).getD (d % 8) []).getD (i / 2) 0) (e (i / 2 * 2)) (e (i / 2 * 2 + 1))
    if i % 2 = 0 then p.1 else p.2
  fun i => f ((perm n).getD i 0)

/-- Threefish encryption of `n` words under the key and the tweak. -/
def encrypt (n : Nat) (key : List U64) (t0 t1 : U64) (p : List U64) : List U64 :=
  let K := extKey n key
  let T := extTweak t0 t1
  let v := (List.range (rounds n)).foldl (fun v d => round n K T d v) (fun i => p.getD i 0#64)
  (List.range n).map fun i => v i + subkey n K T (rounds n / 4) i

end Verif.Spec.Threefish
