import Verif.Lemmas.ShaviteFast
/-
C46: package shavite.
-/
namespace Verif.Props
open Verif.Shavite

/-- What a SHAvite-3 object of hs bytes promises. -/
def shaviteSpec (hs B : Nat) (hash : Nat → Bytes → Bytes) : HashSpec := { H := hash (8 * hs), size := hs, blockSize := B }

/-- Histories in which every Write starts at the beginning of a block of B bytes or stays below the end of the current block, and fewer than 2^64 bytes are written
(the other calls are free). -/
def ShaviteAligned (B : Nat) : List Op → Prop := Permits (okB B) nextLen 0

/-- The contract of New224, for the histories in which no Write completes a block begun by an earlier one. -/
theorem C46_shavite224_partial : RefinesOn (ShaviteAligned 64) D256.impl D256.New224 (shaviteSpec 28 64 Spec.Shavite.hash256) :=
  D256.refines 28 (Spec.Shavite.iv 224) _ (fun _ => rfl)

/-- The contract of New256, for the histories in which no Write completes a block begun by an earlier one. -/
theorem C46_shavite256_partial : RefinesOn (ShaviteAligned 64) D256.impl D256.New256 (shaviteSpec 32 64 Spec.Shavite.hash256) :=
  D256.refines 32 (Spec.Shavite.iv 256) _ (fun _ => rfl)

/-- The contract of New384, for the histories in which no Write completes a block begun by an earlier one. -/
theorem C46_shavite384_partial : RefinesOn (ShaviteAligned 128) D512.impl D512.New384 (shaviteSpec 48 128 Spec.Shavite.hash512) :=
  D512.refines 48 (Spec.Shavite.iv 384) _ (fun _ => rfl)

/-- The contract of New512, for the histories in which no Write completes a block begun by an earlier one. -/
theorem C46_shavite512_partial : RefinesOn (ShaviteAligned 128) D512.impl D512.New512 (shaviteSpec 64 128 Spec.Shavite.hash512) :=
  D512.refines 64 (Spec.Shavite.iv 512) _ (fun _ => rfl)

/-- In particular every message of fewer than 2^64 bytes, written in one call, gets its SHAvite-3 digest. -/
theorem C46_shavite_oneshot (p b : Bytes) (h : p.length < 2 ^ 64) :
    D256.impl.run D256.New224 [.write p, .sum b] = [.wrote p.length, .bytes (b ++ Spec.Shavite.hash256 224 p)] ∧
    D256.impl.run D256.New256 [.write p, .sum b] = [.wrote p.length, .bytes (b ++ Spec.Shavite.hash256 256 p)] ∧
    D512.impl.run D512.New384 [.write p, .sum b] = [.wrote p.length, .bytes (b ++ Spec.Shavite.hash512 384 p)] ∧
    D512.impl.run D512.New512 [.write p, .sum b] = [.wrote p.length, .bytes (b ++ Spec.Shavite.hash512 512 p)] := by
  have ok : ∀ B, ShaviteAligned B [.write p, .sum b] := fun B => ⟨⟨.inl (Nat.zero_mod _), by omega⟩, trivial, trivial⟩
  exact ⟨C46_shavite224_partial _ (ok _), C46_shavite256_partial _ (ok _), C46_shavite384_partial _ (ok _), C46_shavite512_partial _ (ok _)⟩

/-- The histories of the partial theorems: three Writes that cross block boundaries, Sum and Reset between them. -/
example : ShaviteAligned 64 [.write (zeros 10), .sum [], .write (zeros 53), .reset, .write (zeros 192), .write (zeros 63), .sum []] :=
  by
  simp [ShaviteAligned, Permits, okB, nextLen, zeros_length]

/- The same message, in one Write and cut inside the first block. -/
set_option maxRecDepth 100000 in
theorem shavite_split224 : (D256.impl.run D256.New224 [.write (List.replicate 96 1), .sum []]).getD 1 .panicked ≠
    (D256.impl.run D256.New224 [.write (List.replicate 32 1), .write (List.replicate 64 1), .sum []]).getD 2 .panicked := by
  simp only [HashImpl.run, D256.impl, D256.Digest.write, D256.processBlock, D256.Digest.checkSum, D256.process_fast]
  decide +kernel

set_option maxRecDepth 100000 in
theorem shavite_split256 : (D256.impl.run D256.New256 [.write (List.replicate 96 1), .sum []]).getD 1 .panicked ≠
    (D256.impl.run D256.New256 [.write (List.replicate 32 1), .write (List.replicate 64 1), .sum []]).getD 2 .panicked := by
  simp only [HashImpl.run, D256.impl, D256.Digest.write, D256.processBlock, D256.Digest.checkSum, D256.process_fast]
  decide +kernel

/-- Violated: the digest depends on how the message was cut into Writes, so these objects meet the contract of no function at all. -/
theorem C46_shavite_violated : ∀ S, ¬ Refines D256.impl D256.New224 S ∧ ¬ Refines D256.impl D256.New256 S := by
  refine fun S => ⟨fun hr => shavite_split224 ?_, fun hr => shavite_split256 ?_⟩
  · rw [hr [.write (List.replicate 96 1), .sum []], hr [.write (List.replicate 32 1), .write (List.replicate 64 1), .sum []]]; rfl
  · rw [hr [.write (List.replicate 96 1), .sum []], hr [.write (List.replicate 32 1), .write (List.replicate 64 1), .sum []]]; rfl

/-- The AES table lookups of the package are the AES round (SubBytes, ShiftRows, MixColumns) for every input. -/
theorem C46_shavite_aes (q : Q) : aes q = Spec.AES.round q := aes_eq q

/-! Known answers of the repository's shavite_test.go: the first four bytes for the empty message (tests, not proofs). -/
example : ((D256.impl.run D256.New256 [.sum []]).getD 0 .panicked matches .bytes (0x08 :: 0xc5 :: 0x82 :: 0x5a :: _)) = true := by
  simp only [HashImpl.run, D256.impl, D256.Digest.checkSum, D256.process_fast]
  decide +kernel

end Verif.Props
