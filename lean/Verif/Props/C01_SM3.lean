import Verif.Lemmas.SM3
/-
C01: `sm3.New` is SM3 under every history of calls.
-/
namespace Verif.Props

/-- The abstract SM3 object: GB/T 32905 digest, 32-byte output, 64-byte blocks. -/
def sm3Spec : HashSpec := { H := Spec.SM3.hash, size := 32, blockSize := 64 }

theorem sm3_sim : Sim SM3.impl sm3Spec (fun d m => d.Repr 64 SM3.block SM3.iv m) := by
  refine BufDigest.sim (B := 64) (by omega) SM3.block SM3.iv SM3.impl sm3Spec
    ?_ ?_ ?_ (fun _ => rfl) (fun _ => rfl)
  · intro d p h _
    simp only [SM3.impl, SM3.write, BufDigest.absorb, Nat.mod_eq_of_lt h]
  · intro d m b h
    simp only [SM3.impl, SM3.sum, SM3.checkSum_eq d m h]; rfl
  · intro d _
    exact ⟨rfl, by simp [SM3.impl, SM3.reset], rfl, rfl⟩

theorem sm3_init : BufDigest.Repr 64 SM3.block SM3.iv SM3.new [] :=
  .init ⟨rfl, by simp [SM3.new, SM3.reset], rfl, rfl⟩

/-- C01. Every finite sequence of `Write`/`Sum`/`Reset`/`Size`/`BlockSize` calls on a `sm3.New`
object gives exactly the outputs of the abstract SM3 object; in particular there is no panic. -/
theorem C01_sm3_refines : Refines SM3.impl SM3.new sm3Spec := sm3_sim.refines sm3_init

/-- C01, in the words of a user: cutting a message into pieces does not matter. -/
theorem C01_sm3_split (ps : List Bytes) (b : Bytes) :
    SM3.impl.run SM3.new (ps.map Op.write ++ [.sum b]) =
      ps.map (fun p => Out.wrote p.length) ++ [.bytes (b ++ Spec.SM3.hash ps.flatten)] :=
  C01_sm3_refines.split ps b

/-- C01, one shot (`sm3.Sum`, sm3/sm3.go:13-20). -/
theorem C01_sm3_oneshot (m : Bytes) :
    SM3.checkSum (SM3.write SM3.new m) = Spec.SM3.hash m := by
  exact C01_sm3_refines.oneshot (s' := SM3.write SM3.new m) rfl rfl

/-- The digest always has 32 bytes. -/
theorem C01_sm3_size (m : Bytes) : (Spec.SM3.hash m).length = 32 := by
  unfold Spec.SM3.hash
  rw [map_be32_length]
  have : ∀ (l : List Bytes) (v : List U32), v.length = 8 →
      (l.foldl Spec.SM3.CF v).length = 8 := by
    intro l
    induction l with
    | nil => intro v h; exact h
    | cons a l ih => intro v _; exact ih _ rfl
  rw [this _ _ rfl]

-- Tests (published vectors), not proofs: the model and hence the specification.
set_option maxRecDepth 100000 in
example : SM3.impl.run SM3.new [.write (ascii "a"), .sum [], .write (ascii "bc"), .sum [1#8], .size] =
    [.wrote 1,
     .bytes (hex "623476ac18f65a2909e43c7fec61b49c7e764a91a18ccb82f1917a29c86c5e88"), .wrote 2,
     .bytes (1#8 :: hex "66c7f0f462eeedd9d1f2d46bdc10e4e24167c4875cf2f7a2297da02b8f4ba8e0"),
     .num 32] := by
  decide +kernel

-- The specification itself on the same vector, through the theorem.
set_option maxRecDepth 100000 in
example : Spec.SM3.hash (ascii "abc") =
    hex "66c7f0f462eeedd9d1f2d46bdc10e4e24167c4875cf2f7a2297da02b8f4ba8e0" := by
  rw [← C01_sm3_oneshot]; decide +kernel

end Verif.Props
