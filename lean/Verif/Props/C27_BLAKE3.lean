import Verif.Lemmas.BLAKE3Write
/-
C27: BLAKE3 tree hashing.
-/
namespace Verif.Props
open Verif.BLAKE3 (impl newDigest NewWithSize NewWithKeyedAndSize NewWithDeriveKeyAndSize DRepr Digest)
open Verif.Spec (BLAKE3.hashMode BLAKE3.hash BLAKE3.keyed BLAKE3.deriveKey BLAKE3.keyWords)

/-- The contract: BLAKE3 in one of its modes with `n` bytes of output. -/
def blake3Spec (key : List U32) (fl : Byte) (n : Nat) : HashSpec :=
  { H := Spec.BLAKE3.hashMode key fl n, size := n, blockSize := 64 }

/-- Every history of calls in which the message stays below 256 KiB (256 chunks) gives BLAKE3, for every
key, mode and output size.  The restriction is needed: see `C27_blake3_collision`. -/
theorem C27_blake3_modes_partial (key : List U32) (hk : key.length = 8) (fl : Byte) (n : Nat) :
    RefinesOn (Fits (256 * 1024)) impl (newDigest key fl n) (blake3Spec key fl n) := by
  refine refinesOn_fits_of_sim _ _ _ _ (DRepr key fl n) (BLAKE3.reset_eq rfl rfl rfl) ?_ ?_ ?_ ?_ ?_
  · intro s m p h hN
    obtain ⟨e1, e2⟩ := BLAKE3.write_eq hk p h hN
    exact ⟨_, congrArg some (Prod.ext rfl e1), e2⟩
  · intro s m b h hN
    have hz : s.hs = n := by obtain ⟨l, r, _, _, _, _, _, _, _, hz⟩ := h; exact hz
    refine ⟨s, ?_, h⟩
    show (s.finalize s.hs).map _ = _
    rw [hz, BLAKE3.finalize_eq hk n h hN]
    rfl
  · intro s m h
    obtain ⟨l, r, hst, _, _, _, _, _, _, hz⟩ := h
    exact BLAKE3.reset_eq hst.dkey hst.dfl hz
  · intro s m h
    obtain ⟨l, r, _, _, _, _, _, _, _, hz⟩ := h
    exact hz
  · intro s m h; rfl

/-- `NewWithSize`: the plain mode. -/
theorem C27_blake3_partial (n : Nat) : RefinesOn (Fits (256 * 1024)) impl (NewWithSize n)
    { H := Spec.BLAKE3.hash n, size := n, blockSize := 64 } :=
  C27_blake3_modes_partial Spec.BLAKE3.IV rfl 0 n

theorem bytesToUint32s_eq (k : Bytes) (hk : k.length = 32) :
    goCopy (List.replicate 8 0) 0 (BLAKE3.bytesToUint32s k) = Spec.BLAKE3.keyWords k := by
  unfold BLAKE3.bytesToUint32s Spec.BLAKE3.keyWords
  rw [hk]
  rfl

/-- `NewWithKeyedAndSize`: exactly the keys of 32 bytes are accepted, and the digest is keyed BLAKE3. -/
theorem C27_blake3_keyed_partial (k : Bytes) (n : Nat) : (NewWithKeyedAndSize k n).isSome = (k.length == 32) ∧
    ∀ d, NewWithKeyedAndSize k n = some d → RefinesOn (Fits (256 * 1024)) impl d
      { H := Spec.BLAKE3.keyed k n, size := n, blockSize := 64 } := by
  unfold NewWithKeyedAndSize
  by_cases h : k.length ≠ 32
  · rw [if_pos h]
    exact ⟨by simp [h], fun d hd => absurd hd (by simp)⟩
  · rw [if_neg h]
    have hk : k.length = 32 := by omega
    refine ⟨by simp [hk], fun d hd => ?_⟩
    rw [bytesToUint32s_eq k hk] at hd
    have := Option.some.inj hd
    subst this
    exact C27_blake3_modes_partial (Spec.BLAKE3.keyWords k) rfl Spec.BLAKE3.KEYED_HASH n

theorem output_length (nd : Spec.BLAKE3.Node) (h : nd.h.length = 8) (n : Nat) : (Spec.BLAKE3.output nd n).length = n := by
  unfold Spec.BLAKE3.output
  rw [List.length_take, List.length_flatMap]
  have : ∀ k, ((List.range k).map (fun a => (nd.rootBlock a).length)).sum = 64 * k := by
    intro k
    induction k with
    | zero => rfl
    | succ k ih => rw [List.range_succ, List.map_append, List.sum_append, ih]; simp [BLAKE3.rootBlock_length h]; omega
  rw [this]; omega

/-- `NewWithDeriveKeyAndSize`: for contexts below 256 KiB, BLAKE3's key derivation. -/
theorem C27_blake3_derive_partial (context : Bytes) (hc : context.length < 256 * 1024) (n : Nat) :
    ∃ d, NewWithDeriveKeyAndSize context n = some d ∧ RefinesOn (Fits (256 * 1024)) impl d
      { H := Spec.BLAKE3.deriveKey context n, size := n, blockSize := 64 } := by
  have h0 : DRepr Spec.BLAKE3.IV Spec.BLAKE3.DERIVE_KEY_CONTEXT 32 (newDigest BLAKE3.iv BLAKE3.DERIVE_KEY_CONTEXT 32) [] :=
    BLAKE3.reset_eq rfl rfl rfl
  obtain ⟨_, h1⟩ := BLAKE3.write_eq (by rfl) context h0 hc
  rw [List.nil_append] at h1
  have h2 := BLAKE3.finalize_eq (by rfl) 32 h1 hc
  unfold NewWithDeriveKeyAndSize
  dsimp only
  rw [h2]
  refine ⟨_, rfl, ?_⟩
  dsimp only
  rw [bytesToUint32s_eq (Spec.BLAKE3.hashMode _ _ 32 context) (output_length _ (BLAKE3.tree_h_length _ _ (by rfl) _ _) 32)]
  exact C27_blake3_modes_partial (Spec.BLAKE3.keyWords _) rfl Spec.BLAKE3.DERIVE_KEY_MATERIAL n

/-- The extendable output is one stream: a shorter output is a prefix of a longer one. -/
theorem C27_blake3_stream (key : List U32) (hk : key.length = 8) (fl : Byte) (n k : Nat) (m : Bytes) :
    Spec.BLAKE3.hashMode key fl n m = (Spec.BLAKE3.hashMode key fl (n + k) m).take n := by
  have h := BLAKE3.tree_h_length key fl hk 0 m
  unfold Spec.BLAKE3.hashMode Spec.BLAKE3.output
  generalize Spec.BLAKE3.tree key fl 0 m = nd at h
  rw [List.take_take, Nat.min_eq_left (by omega)]
  have hle : (n + 63) / 64 ≤ (n + k + 63) / 64 := Nat.div_le_div_right (by omega)
  have hs : (n + k + 63) / 64 = (n + 63) / 64 + ((n + k + 63) / 64 - (n + 63) / 64) := by omega
  rw [hs, List.range_add, List.flatMap_append, List.take_append_of_le_length]
  have : ∀ j, ((List.range j).flatMap nd.rootBlock).length = 64 * j := by
    intro j
    induction j with
    | zero => rfl
    | succ j ih => rw [List.range_succ, List.flatMap_append, List.length_append, ih]; simp [BLAKE3.rootBlock_length h]; omega
  rw [this]; omega

/-- The same through the API: a digest with a shorter output returns a prefix. -/
theorem C27_blake3_size_prefix (n k : Nat) (m : Bytes) (hm : m.length < 256 * 1024) :
    ((NewWithSize n).write m).1.finalize n = (((NewWithSize (n + k)).write m).1.finalize (n + k)).map (·.take n) := by
  have h1 : ∀ n, DRepr Spec.BLAKE3.IV 0 n ((NewWithSize n).write m).1 m := fun n =>
    (BLAKE3.write_eq (by rfl) m (BLAKE3.reset_eq rfl rfl rfl : DRepr Spec.BLAKE3.IV 0 n (NewWithSize n) []) hm).2
  rw [BLAKE3.finalize_eq (by rfl) n (h1 n) hm, BLAKE3.finalize_eq (by rfl) (n + k) (h1 (n + k)) hm, C27_blake3_stream _ (by rfl) 0 n k m]
  rfl

/-! Tests (not proofs): known answers of the paper's test vectors, for the specification and the code. -/
set_option maxRecDepth 100000 in
example : Spec.BLAKE3.output (Spec.BLAKE3.chunk Spec.BLAKE3.IV 0 0 []) 32 =
    hex "af1349b9f5f9a1a6a0404dea36dcc9499bcb25c9adc112b7cc9a93cae41f3262" := by decide +kernel
example : Spec.BLAKE3.hash 32 [] = hex "af1349b9f5f9a1a6a0404dea36dcc9499bcb25c9adc112b7cc9a93cae41f3262" := by
  unfold Spec.BLAKE3.hash Spec.BLAKE3.hashMode
  rw [BLAKE3.tree_chunk _ _ _ _ (by decide)]
  decide +kernel
/-- A history that meets the hypotheses: several writes across chunk boundaries. -/
example : Fits (256 * 1024) [.write (zeros 1000), .write (zeros 5000), .sum [], .reset, .write (zeros 2048), .sum [1]] := by
  intro k
  match k with
  | 0 => decide
  | 1 => simp [msgAfter]
  | 2 => simp [msgAfter]
  | 3 => simp [msgAfter]
  | 4 => simp [msgAfter]
  | 5 => simp [msgAfter]
  | k + 6 => simp [msgAfter]

end Verif.Props
