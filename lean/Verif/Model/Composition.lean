import Verif.HashAPI
/-
Model of package hash_composition: digest.go, hash_composition.go.  The two component hashes are
arbitrary `hash.Hash` implementations, separate objects.
-/
namespace Verif.Composition

/-- hash_composition/digest.go:8-11 -/
structure Digest (σ₁ σ₂ : Type) where
  h1 : σ₁
  h2 : σ₂

variable {σ₁ σ₂ : Type} (I1 : HashImpl σ₁) (I2 : HashImpl σ₂)

/-- hash_composition/digest.go:23-26 `Reset` -/
def reset (d : Digest σ₁ σ₂) : Digest σ₁ σ₂ := { h1 := I1.reset d.h1, h2 := I2.reset d.h2 }
/-- hash_composition/digest.go:14-21 `newDigest` -/
def new (n1 : σ₁) (n2 : σ₂) : Digest σ₁ σ₂ := reset I1 I2 { h1 := n1, h2 := n2 }
/-- hash_composition/digest.go:40-52 `Sum`, `checkSum`.  `d0 := *d` copies the two interface values,
not the objects, so `h1` and `h2` of `d` itself are written to and summed. -/
def sum (d : Digest σ₁ σ₂) (b : Bytes) : Option (Digest σ₁ σ₂ × Bytes) := do
  let (h2, h2Digest) ← I2.sum d.h2 []
  let (h1, _) ← I1.write d.h1 h2Digest
  let (h1, hash) ← I1.sum h1 []
  pure ({ h1 := h1, h2 := h2 }, b ++ hash)
/-- The methods, hash_composition/digest.go:23-45 -/
def impl : HashImpl (Digest σ₁ σ₂) where
  write d p := do
    let (h2, n) ← I2.write d.h2 p
    pure ({ d with h2 := h2 }, n)
  sum := sum I1 I2
  reset := reset I1 I2
  size d := I1.size d.h1
  blockSize d := I1.blockSize d.h1

end Verif.Composition
