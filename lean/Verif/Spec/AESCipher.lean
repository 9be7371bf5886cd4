import Verif.Spec.AES
/-
The block cipher AES (FIPS 197): key expansion (§5.2) and encryption (§5.1), on bytes.
-/
namespace Verif.Spec.AES
open Spec.Groestl (sbox mul)

def bxor (a b : Bytes) : Bytes := List.zipWith (· ^^^ ·) a b
/-- x^(i-1) in the field. -/
def rcon : Nat → Byte
  | 0 => 1
  | i + 1 => mul 2 (rcon i)

/-- The words w[0..n] of the expanded key, `Nk` words of key, newest last. -/
def expand (key : Bytes) (Nk : Nat) : Nat → List Bytes
  | 0 => (List.range Nk).map fun i => (key.drop (4 * i)).take 4
  | n + 1 =>
    let w := expand key Nk n
    let i := w.length
    let temp := w.getD (i - 1) []
    let temp := if i % Nk = 0 then bxor (subBytes (temp.drop 1 ++ temp.take 1)) [rcon (i / Nk - 1), 0, 0, 0]
      else if 6 < Nk ∧ i % Nk = 4 then subBytes temp else temp
    w ++ [bxor (w.getD (i - Nk) []) temp]

/-- Round key `r`: four words. -/
def roundKey (w : List Bytes) (r : Nat) : Bytes := ((w.drop (4 * r)).take 4).flatten

/-- Cipher(), with `Nr` rounds. -/
def cipher (Nr : Nat) (w : List Bytes) (input : Bytes) : Bytes :=
  let s := bxor input (roundKey w 0)
  let s := (List.range (Nr - 1)).foldl (fun s i => bxor (mixColumns (shiftRows (subBytes s))) (roundKey w (i + 1))) s
  bxor (shiftRows (subBytes s)) (roundKey w Nr)

/-- AES-128, AES-192, AES-256; other key lengths do not exist. -/
def new (key : Bytes) : Option (Bytes → Bytes) :=
  if key.length = 16 ∨ key.length = 24 ∨ key.length = 32 then
    let Nk := key.length / 4
    let Nr := Nk + 6
    some (cipher Nr (expand key Nk (4 * (Nr + 1) - Nk)))
  else none

end Verif.Spec.AES
