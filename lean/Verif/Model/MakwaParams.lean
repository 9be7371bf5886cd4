import Verif.Model.Makwa
/-
Model of makwa/params.go:27-68.
crypto/rand.Prime is a parameter: `lib i bits` is what its call number `i` returns, a number or an error.
-/
namespace Verif.MakwaParams

/-- The results of the calls of crypto/rand.Prime (used in makwa/params.go:59). -/
abbrev Lib := Nat → Int → Except Unit Nat

/-- makwa/params.go:57-68 `genPrime`, from call number `i` on; the result and the number of the next call.  `none`: the loop has
not ended after `fuel` passes. -/
def genPrime (lib : Lib) (bits : Int) : Nat → Nat → Option (Except Unit Nat × Nat)
  | 0, _ => none
  | fuel + 1, i =>
    match lib i bits with
    | .error e => some (.error e, i + 1)
    | .ok n => if n % 4 = 3 then some (.ok n, i + 1) else genPrime lib bits fuel (i + 1)

/-- makwa/params.go:21-25 `PrivateParameters`, without the hash function (SHA-256). -/
structure Private where
  N : Nat
  P : Nat
  Q : Nat

/-- makwa/params.go:27-50 `GenerateParameters`.  `(bits + 1) >> 1` is the quotient rounded down. -/
def generateParameters (lib : Lib) (bits : Int) (fuel : Nat) : Option (Except Unit Private) :=
  let pBits := (bits + 1) >>> 1
  let qBits := bits - pBits
  match genPrime lib pBits fuel 0 with
  | none => none
  | some (.error e, _) => some (.error e)
  | some (.ok p, i) =>
    match genPrime lib qBits fuel i with
    | none => none
    | some (.error e, _) => some (.error e)
    | some (.ok q, _) => some (.ok { N := p * q, P := p, Q := q })

end Verif.MakwaParams
