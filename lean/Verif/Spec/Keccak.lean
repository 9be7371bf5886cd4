import Verif.Basic
/-
Keccak-p[1600, n_r] (FIPS 202, section 3), TurboSHAKE128 and KangarooTwelve (RFC 9861).
-/
namespace Verif.Spec.Keccak

/-- The 25 lanes; lane (x, y) is number x + 5y. -/
abbrev State := List U64
def lane (A : State) (x y : Nat) : U64 := A.getD (x % 5 + 5 * (y % 5)) 0
def mk (f : Nat → Nat → U64) : State := (List.range 25).map fun i => f (i % 5) (i / 5)

/-- θ -/
def C (A : State) (x : Nat) : U64 := lane A x 0 ^^^ lane A x 1 ^^^ lane A x 2 ^^^ lane A x 3 ^^^ lane A x 4
def D (A : State) (x : Nat) : U64 := C A (x + 4) ^^^ (C A (x + 1)).rotateLeft 1
def theta (A : State) : State := mk fun x y => lane A x y ^^^ D A x

/-- ρ: the offset of (x, y) is (t+1)(t+2)/2 at the t-th point of the walk (x, y) ↦ (y, 2x + 3y) from (1, 0). -/
def walk : Nat → Nat × Nat
  | 0 => (1, 0)
  | t + 1 => ((walk t).2, (2 * (walk t).1 + 3 * (walk t).2) % 5)
def offset (x y : Nat) : Nat :=
  if x = 0 ∧ y = 0 then 0
  else match (List.range 24).find? (fun t => walk t == (x, y)) with
    | some t => (t + 1) * (t + 2) / 2 % 64
    | none => 0
def rho (A : State) : State := mk fun x y => (lane A x y).rotateLeft (offset x y)

/-- π -/
def pi (A : State) : State := mk fun x y => lane A (x + 3 * y) x
/-- χ -/
def chi (A : State) : State := mk fun x y => lane A x y ^^^ (~~~ lane A (x + 1) y &&& lane A (x + 2) y)

/-- rc(t): the bit of the LFSR with polynomial x^8 + x^6 + x^5 + x^4 + 1 (FIPS 202, Algorithm 5); the register R[0..7] is held with R[0]
as the least significant bit. -/
def lfsr : Nat → BitVec 8
  | 0 => 1
  | t + 1 =>
    let R := lfsr t
    if R.getLsbD 7 then (R <<< 1) ^^^ 0b01110001#8 else R <<< 1
def rcBit (t : Nat) : Bool := (lfsr (t % 255)).getLsbD 0
/-- RC[i]: bit 2^j - 1 is rc(j + 7i), for j = 0..6. -/
def RC (i : Nat) : U64 :=
  (List.range 7).foldl (fun r j => if rcBit (j + 7 * i) then r ||| (1#64 <<< (2 ^ j - 1)) else r) 0
/-- ι -/
def iota (c : U64) (A : State) : State := mk fun x y => if x = 0 ∧ y = 0 then lane A x y ^^^ c else lane A x y

def round (c : U64) (A : State) : State := iota c (chi (pi (rho (theta A))))
/-- Keccak-p[1600, nr]: the last nr of the 24 rounds. -/
def p (nr : Nat) (A : State) : State := (List.range' (24 - nr) nr).foldl (fun A i => round (RC i) A) A

end Verif.Spec.Keccak
