import Verif.Basic
import Mathlib.Algebra.Polynomial.Div
import Mathlib.Data.ZMod.Basic
import Mathlib.Data.Nat.Size
/-
Rabin fingerprints over GF(2)[X], with Mathlib's polynomials and division.
-/
namespace Verif.Spec.Rabin
open Polynomial

/-- The polynomial whose coefficients are the binary digits of `n`. -/
noncomputable def poly (n : Nat) : (ZMod 2)[X] :=
  ∑ i ∈ Finset.range n.size, if n.testBit i then X ^ i else 0

/-- The message as a number: bits left to right, most significant first. -/
def num (m : Bytes) : Nat := m.foldl (fun v b => v * 256 + b.toNat) 0

/-- The remainder of the message polynomial by `p`. -/
noncomputable def residue (p : Nat) (m : Bytes) : (ZMod 2)[X] := poly (num m) %ₘ poly p

/-- The fingerprint: the coefficients of the remainder, as a 64-bit number. -/
noncomputable def fingerprint (p : Nat) (m : Bytes) : U64 :=
  BitVec.ofNat 64 (∑ i ∈ Finset.range 64, if (residue p m).coeff i = 1 then 2 ^ i else 0)

/-- The last `w` bytes (all of them if there are fewer; all of them also when there is no window). -/
def window (w : Int) (m : Bytes) : Bytes := if 0 < w then m.drop (m.length - w.toNat) else m

end Verif.Spec.Rabin
