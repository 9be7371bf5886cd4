import Verif.Lemmas.MD6
/-
C30: package md6.
-/
namespace Verif.Props
open Verif.MD6

/-- The parameters of `NewMD6(size, key, levels)`: the key is cut to 64 bytes; 40 + d/4 rounds, at least 80 with a key. -/
def md6Par (size : Nat) (key : Bytes) (L : Int) : Spec.MD6.Par :=
  ⟨size, key.take 64, if key ≠ [] then max 80 (40 + size / 4) else 40 + size / 4, L⟩

/-- For every size up to 1024 bits, every key, every number of levels and every history (messages below 2^64 bytes), the object computes
one fixed function of the message, `Spec.MD6.chain`, however the message was split into writes. -/
theorem C30_md6_function (size : Nat) (key : Bytes) (L : Int) (hs : size ≤ 1024) :
    RefinesOn (Fits (2 ^ 64)) impl (newDigest size key L) { H := Spec.MD6.chain (md6Par size key L), size := size / 8, blockSize := 512 } := by
  refine refinesOn_fits_of_sim _ impl _ _ (Rep (md6Par size key L)) (new_rep size key L) ?_ ?_ ?_ ?_ ?_
  · intro g m p h _
    have := write_rep _ g m p h
    exact ⟨(g.write p).1, by show some (g.write p) = _; rw [← this.2], this.1⟩
  · intro g m b h hm
    refine ⟨g, ?_, h⟩
    show g.checkSum.map _ = _
    rw [checkSum_eq _ g m h hm hs]; rfl
  · intro g m h; exact reset_rep _ g m h
  · intro g m h; show g.d / 8 = _; rw [h.ch.par.d]; rfl
  · intro g m h; rfl

/-- For messages of fewer than 512 bytes that function is MD6 (all sizes, keys, and level limits ≥ 1): all data enter one node.
Missing: longer messages, for which it is not MD6 and does not even absorb the message (`C30_md6_violated`). -/
theorem C30_md6_short_partial (size : Nat) (key : Bytes) (L : Int) (hL : 1 ≤ L) (m : Bytes) (hm : m.length < 512) :
    Spec.MD6.chain (md6Par size key L) m = Spec.MD6.short (md6Par size key L) m := chain_short _ m hm hL

/-- C30 is false: after the first 512 bytes, the last 128 bytes of every 512-byte block (and of a partial last block all beyond 384) do not
influence the digest, for every size, key and number of levels, whatever surrounds the block. -/
theorem C30_md6_violated (size : Nat) (key : Bytes) (L : Int) (a M M' t : Bytes) (ha : a.length % 512 = 0) (h0 : a ≠ []) (hl : M.length = M'.length)
    (hM : M.length ≤ 512) (ht : M.length < 512 → t = []) (h : M.take 384 = M'.take 384) :
    Spec.MD6.chain (md6Par size key L) (a ++ M ++ t) = Spec.MD6.chain (md6Par size key L) (a ++ M' ++ t) :=
  chain_congr _ a M M' t ha h0 hl hM ht h

/-- The same, on the API: two different messages of 1024 bytes, one Write and one Sum each, the same digest, for New(size) of every size. -/
theorem C30_md6_collision (size : Nat) (hs : size ≤ 1024) (key : Bytes) (L : Int) :
    ∃ m m' : Bytes, m ≠ m' ∧ m.length = m'.length ∧
      impl.run (newDigest size key L) [.write m, .sum []] = impl.run (newDigest size key L) [.write m', .sum []] := by
  have h := C30_md6_function size key L hs
  have hz : (zeros 1023).length = 1023 := zeros_length _
  have e0 : zeros 1023 = zeros 512 ++ zeros 511 := by unfold zeros; rw [List.replicate_append_replicate]
  have e5 : zeros 511 = zeros 384 ++ zeros 127 := by unfold zeros; rw [List.replicate_append_replicate]
  have fits : ∀ x : Byte, Fits (2 ^ 64) [.write (zeros 1023 ++ [x]), .sum []] := by
    intro x k
    have : (msgAfter [] (([.write (zeros 1023 ++ [x]), .sum []] : List Op).take k)).length ≤ 1024 := by
      match k with
      | 0 => exact Nat.zero_le _
      | 1 => show ([] ++ (zeros 1023 ++ [x])).length ≤ 1024; rw [List.nil_append, List.length_append, hz]; exact Nat.le_refl _
      | n + 2 =>
        have : ([.write (zeros 1023 ++ [x]), .sum []] : List Op).take (n + 2) = [.write (zeros 1023 ++ [x]), .sum []] := List.take_of_length_le (by simp)
        rw [this]
        show ([] ++ (zeros 1023 ++ [x])).length ≤ 1024; rw [List.nil_append, List.length_append, hz]; exact Nat.le_refl _
    exact Nat.lt_of_le_of_lt this (by decide)
  refine ⟨zeros 1023 ++ [0#8], zeros 1023 ++ [1#8], ?_, ?_, ?_⟩
  · intro hc
    have := List.append_cancel_left hc
    revert this; decide
  · rw [List.length_append, List.length_append, List.length_singleton, List.length_singleton]
  · rw [h _ (fits 0#8), h _ (fits 1#8)]
    have hq : Spec.MD6.chain (md6Par size key L) (zeros 1023 ++ [0#8]) = Spec.MD6.chain (md6Par size key L) (zeros 1023 ++ [1#8]) := by
      have := chain_congr (md6Par size key L) (zeros 512) (zeros 511 ++ [0#8]) (zeros 511 ++ [1#8]) [] (by rw [zeros_length])
        (by intro hc; have := congrArg List.length hc; rw [zeros_length] at this; exact absurd this (by decide))
        (by rw [List.length_append, List.length_append, List.length_singleton, List.length_singleton]) (by rw [List.length_append, zeros_length]; decide) (fun _ => rfl)
        (by rw [e5, List.append_assoc, List.append_assoc, List.take_left' (zeros_length 384), List.take_left' (zeros_length 384)])
      rw [List.append_nil, List.append_nil] at this
      rw [e0, List.append_assoc, List.append_assoc]
      exact this
    simp only [HashSpec.run, List.nil_append]
    rw [hq, List.length_append, List.length_append, List.length_singleton, List.length_singleton]

/-! Non-vacuity: a keyed object, split writes across the block boundary; a message of 3 bytes meets the hypotheses of the short theorem. -/
example : Fits (2 ^ 64) [.write [1, 2], .sum [], .reset, .write [3], .sum [9]] := by
  intro k
  match k with
  | 0 | 1 | 2 | 3 | 4 => decide
  | n + 5 =>
    rw [List.take_of_length_le (by simp)]; decide
example : ∃ m : Bytes, m.length < 512 ∧ m = [97, 98, 99] := ⟨_, by decide, rfl⟩

/-! Known answer test (the MD6 report: "abc", d = 256, 5 rounds): a test, not a proof. -/
set_option maxRecDepth 100000 in
example : Spec.MD6.short ⟨256, [], 5, 64⟩ (ascii "abc") = hex "8854c14dc284f840ed71ad7ba542855ce189633e48c797a55121a746be48cec8" := by decide +kernel
set_option maxRecDepth 100000 in
example : impl.run { newDigest 256 [] 64 with r := 5 } [.write (ascii "abc"), .sum []] =
    [.wrote 3, .bytes (hex "8854c14dc284f840ed71ad7ba542855ce189633e48c797a55121a746be48cec8")] := by decide +kernel

end Verif.Props
