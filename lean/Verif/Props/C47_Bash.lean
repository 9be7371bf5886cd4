import Verif.Lemmas.BashObj
/-
C47: package bash.
-/
namespace Verif.Props
open Verif.Bash

/-- The permutation of the package is the standard's bash-f (generated rotations and constants), on all states. -/
theorem C47_bash_f (S : List U64) (hS : S.length = 24) : uint64sToBytes (BASHF S) = Spec.Bash.f (uint64sToBytes S) := (BASHF_eq S hS).1

/-- Partial: if no Write reaches past the end of the block being filled, the object meets the contract of the XOR sponge over bash-f, for every digest
size.  Missing: all other histories, where it fails (below). -/
theorem C47_bash_aligned_partial (hs : Nat) (h0 : 0 < hs) (hh : hs ≤ 64) :
    ∃ d, newDigest (8 * hs : Nat) = some d ∧
      RefinesOn (Aligned hs) impl d { H := Spec.Bash.hashXor hs, size := hs, blockSize := 192 - 2 * hs } := by
  obtain ⟨d, e, h1, h2⟩ := new_eq hs h0 hh
  refine ⟨_, e, refinesOn_permits_of_sim _ _ _ impl _ _ (fun d t m => Rep hs d m ∧ d.nx = t) ⟨reset_rep hs hh d h1 h2, rfl⟩ ?_ ?_ ?_ ?_ ?_⟩
  · rintro s t m p ⟨hr, rfl⟩ hok
    obtain ⟨d', w1, w2, w3⟩ := write_rep hs hh s m p hr hok
    exact ⟨d', w1, w2, w3⟩
  · rintro s t m b ⟨hr, ht⟩ _
    refine ⟨s, ?_, hr, ht⟩
    show (match s.checkSum with | none => none | some h => some (s, b ++ h)) = _
    rw [checkSum_eq hs hh s m hr]
  · rintro s t m ⟨hr, ht⟩ _
    exact ⟨reset_rep hs hh s hr.hhs hr.hbs, rfl⟩
  · rintro s t m ⟨hr, ht⟩
    exact ⟨by show s.hs.toNat = hs; rw [hr.hhs]; omega, fun _ => ⟨hr, ht⟩⟩
  · rintro s t m ⟨hr, ht⟩
    exact ⟨by show s.bs.toNat = 192 - 2 * hs; rw [hr.hbs]; unfold BS; omega, fun _ => ⟨hr, ht⟩⟩

/-- The hypothesis is met by, for instance, a block written in two pieces, then one byte. -/
example : Aligned 32 [.write (zeros 100), .sum [], .write (zeros 28), .write [1], .reset, .write (zeros 128)] := by
  simp [Aligned, Permits, BS, zeros]

/-- On messages shorter than one block the XOR sponge and the standard's function (which replaces instead of adding) are the same
(for digests of at least 4 bytes: the standard's sizes are multiples of 4). -/
theorem C47_bash_short_standard (hs : Nat) (h4 : 4 ≤ hs) (hh : hs ≤ 64) (m : Bytes) (hm : m.length < 192 - 2 * hs) : Spec.Bash.hashXor hs m = Spec.Bash.hash hs m := by
  have hlen : (Spec.Bash.pad (192 - 2 * hs) m).length = 192 - 2 * hs := by
    unfold Spec.Bash.pad
    rw [List.length_append, List.length_cons, zeros_length]
    by_cases c : m.length + 1 = 192 - 2 * hs
    · rw [c, Nat.mod_self, Nat.sub_zero, Nat.mod_self]; omega
    · rw [Nat.mod_eq_of_lt (show m.length + 1 < 192 - 2 * hs by omega), Nat.mod_eq_of_lt (by omega)]; omega
  unfold Spec.Bash.hashXor Spec.Bash.hash
  dsimp only
  rw [fullBlocks_one _ _ (by omega) hlen]
  show List.take hs (Spec.Bash.absorbXor _ _) = List.take hs (Spec.Bash.absorbReplace _ _ _)
  unfold Spec.Bash.absorbXor Spec.Bash.absorbReplace
  rw [hlen]
  generalize Spec.Bash.pad (192 - 2 * hs) m = b at hlen
  congr 2
  have hi : Spec.Bash.init hs = zeros (192 - 2 * hs) ++ (Spec.Bash.init hs).drop (192 - 2 * hs) := by
    have : ∀ n, n < 65 → 4 ≤ n → Spec.Bash.init n = zeros (192 - 2 * n) ++ (Spec.Bash.init n).drop (192 - 2 * n) := by decide +kernel
    exact this hs (by omega) h4
  have hzl : ∀ b : Bytes, List.zipWith (· ^^^ ·) (zeros b.length) b = b := by
    intro b
    induction b with
    | nil => rfl
    | cons x b ih =>
      show (0#8 ^^^ x) :: List.zipWith _ (zeros b.length) b = _
      rw [ih]; simp
  have hzr : ∀ b : Bytes, List.zipWith (· ^^^ ·) b (zeros b.length) = b := by
    intro b
    induction b with
    | nil => rfl
    | cons x b ih =>
      show (x ^^^ 0#8) :: List.zipWith _ b (zeros b.length) = _
      rw [ih]; simp
  have hdl : ((Spec.Bash.init hs).drop (192 - 2 * hs)).length = 192 - (192 - 2 * hs) := by
    rw [List.length_drop]; unfold Spec.Bash.init; rw [List.length_append, zeros_length, le64_length]
  rw [hi, List.zipWith_append (by rw [zeros_length, hlen]), ← hlen, hzl b, hlen, ← hdl, hzr, ← hi]

/-- Hence: histories whose messages stay shorter than one block meet the contract against the standard's function. -/
theorem C47_bash_short_partial (hs : Nat) (h4 : 4 ≤ hs) (hh : hs ≤ 64) :
    ∃ d, newDigest (8 * hs : Nat) = some d ∧
      RefinesOn (Fits (192 - 2 * hs)) impl d { H := Spec.Bash.hash hs, size := hs, blockSize := 192 - 2 * hs } := by
  obtain ⟨d, e, h1, h2⟩ := new_eq hs (by omega) hh
  refine ⟨_, e, refinesOn_fits_of_sim (192 - 2 * hs) impl _ _ (fun d m => Rep hs d m) (reset_rep hs hh d h1 h2) ?_ ?_ ?_ ?_ ?_⟩
  · intro s m p hr hf
    have hnx : s.nx = m.length := by
      rw [hr.hnx, restBlock_length]; apply Nat.mod_eq_of_lt; unfold BS; rw [List.length_append] at hf; omega
    obtain ⟨d', w1, w2, _⟩ := write_rep hs hh s m p hr (by rw [List.length_append] at hf; unfold BS; omega)
    exact ⟨d', w1, w2⟩
  · intro s m b hr hf
    refine ⟨s, ?_, hr⟩
    show (match s.checkSum with | none => none | some h => some (s, b ++ h)) = _
    rw [checkSum_eq hs hh s m hr, C47_bash_short_standard hs h4 hh m hf]
  · intro s m hr
    exact reset_rep hs hh s hr.hhs hr.hbs
  · intro s m hr
    show s.hs.toNat = hs; rw [hr.hhs]; omega
  · intro s m hr
    show s.bs.toNat = 192 - 2 * hs; rw [hr.hbs]; unfold BS; omega

/-- The object of New512, 65 bytes 0x01, in one Write and in two. -/
def bashD : Digest := Digest.reset { s := [], x := [], nx := 0, len := 0, hs := 64, bs := 64 }

theorem bashD_new : newDigest 512 = some bashD := rfl

set_option maxRecDepth 100000 in
theorem bash_split_differs : (impl.run bashD [.write (List.replicate 65 1), .sum []]).getD 1 .panicked ≠
    (impl.run bashD [.write (List.replicate 64 1), .write [1], .sum []]).getD 2 .panicked := by decide +kernel

/-- Violated: the digest depends on how the message was cut into Writes, so New512 meets the contract of no function at all. -/
theorem C47_bash_violated : ∃ d, newDigest 512 = some d ∧ ∀ S, ¬ Refines impl d S := by
  refine ⟨bashD, bashD_new, fun S hr => bash_split_differs ?_⟩
  rw [hr [.write (List.replicate 65 1), .sum []], hr [.write (List.replicate 64 1), .write [1], .sum []]]
  rfl

set_option maxRecDepth 100000 in
/-- Even in one Write, a message of 65 bytes gets neither the standard's digest nor that of the XOR sponge. -/
theorem C47_bash_oneshot_violated : (impl.run bashD [.write (List.replicate 65 1), .sum []]).getD 1 .panicked ≠ .bytes (Spec.Bash.hash 64 (List.replicate 65 1)) ∧
    (impl.run bashD [.write (List.replicate 65 1), .sum []]).getD 1 .panicked ≠ .bytes (Spec.Bash.hashXor 64 (List.replicate 65 1)) := by decide +kernel

/-- Violated: New accepts every negative multiple of 8, and then Sum panics. -/
theorem C47_bash_negative_violated (n : Nat) (h : 0 < n) : ∃ d, newDigest (-(8 * n : Nat)) = some d ∧ ∀ b, impl.sum d b = none := by
  have e : newDigest (-(8 * n : Nat)) = some (Digest.reset { s := [], x := [], nx := 0, len := 0, hs := -(n : Int), bs := 192 - 2 * -(n : Int) }) := by
    unfold newDigest
    have e1 : (-((8 * n : Nat) : Int)).tmod 8 = 0 := by
      rw [Int.neg_tmod, Int.tmod_eq_emod_of_nonneg (by omega)]; omega
    have e2 : (-((8 * n : Nat) : Int)).tdiv 8 = -(n : Int) := by
      rw [Int.neg_tdiv, Int.tdiv_eq_ediv_of_nonneg (by omega)]; omega
    rw [if_neg (by omega), e1, if_neg (by omega), if_neg (by omega), e2]
  generalize hd : Digest.reset { s := [], x := [], nx := 0, len := 0, hs := -(n : Int), bs := 192 - 2 * -(n : Int) } = d at e
  have hneg : d.hs < 0 := by rw [← hd]; show -(n : Int) < 0; omega
  refine ⟨d, e, fun b => ?_⟩
  show (match d.checkSum with | none => none | some h => some (d, b ++ h)) = none
  have : d.checkSum = none := by
    unfold Digest.checkSum
    split
    · rfl
    · rfl
  rw [this]

/-! Known answer test of the repository's bash_test.go (a test, not a proof). -/
set_option maxRecDepth 100000 in
example : Spec.Bash.hash 28 [0x1F, 0x87, 0x7C] = [0xc8, 0xb2, 0x20, 0x35, 0xa5, 0x35, 0x7c, 0x9b, 0x31, 0xcd, 0x13, 0x78, 0x8b, 0x7e, 0x89, 0x8a,
  0xd6, 0x1d, 0x87, 0xfb, 0x45, 0x9e, 0x5e, 0x30, 0x9d, 0xef, 0x9e, 0x9b] := by decide +kernel

end Verif.Props
