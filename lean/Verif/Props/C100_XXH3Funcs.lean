import Verif.Props.C99_XXH3
/-
xxhash/xxh3: the exported functions (C100, C102).
-/
namespace Verif.Props
open Verif.XXH3

theorem xxh3_oneshot_rep (seed : U64) (m : Bytes) : ∃ d, (NewWithSeed seed).write m = some (d, m.length) ∧ Rep seed (Spec.XXH3.derive seed) d m := by
  have hk := xxh3_seedKey seed
  have h0 : Rep seed (Spec.XXH3.derive seed) (NewWithSeed seed) [] := by rw [xxh3_newSeed]; exact new_rep seed _ hk.1
  obtain ⟨d, e, h⟩ := (write_rep hk.1 h0 m).2 (fun h => absurd h.1 (by decide))
  exact ⟨d, e, by simpa using h⟩

/-- C102: `Sum64`, `Sum64WithSeed`, `Checksum64...`, `Sum128...`, `Checksum128...` never panic and return XXH3 from 4 bytes on. -/
theorem xxh3_oneshot (seed : U64) (m : Bytes) (h4 : 4 ≤ m.length) (hm : m.length < 2 ^ 64) :
    Sum64WithSeed m seed = some (be64 (Spec.XXH3.hash64 (.ofSeed seed) m)) ∧
    Checksum64WithSeed m seed = some (Spec.XXH3.hash64 (.ofSeed seed) m) ∧
    Sum128WithSeed m seed = some (be64 (Spec.XXH3.hash128 (.ofSeed seed) m).2 ++ be64 (Spec.XXH3.hash128 (.ofSeed seed) m).1) ∧
    (Checksum128WithSeed m seed).map (fun u => (u.low, u.high)) = some (Spec.XXH3.hash128 (.ofSeed seed) m) := by
  have hk := xxh3_seedKey seed
  obtain ⟨d, e, h⟩ := xxh3_oneshot_rep seed m
  have s64 : d.Sum64 = Spec.XXH3.hash64 (.ofSeed seed) m := by rw [sum64_eq hk h hm]; exact xxh3_fin64 _ _ _ _ h4
  have s128 : d.Sum128 = ofPair (Spec.XXH3.hash128 (.ofSeed seed) m) := by rw [sum128_eq hk h hm, xxh3_fin128 _ Spec.XXH3.avalanche64 _ _ h4]; rfl
  refine ⟨?_, ?_, ?_, ?_⟩
  · unfold Sum64WithSeed; rw [e, Option.map_some, s64, goCopy_zero_all _ _ (by rfl)]
  · unfold Checksum64WithSeed; rw [e, Option.map_some, s64]
  · unfold Sum128WithSeed; rw [e, Option.map_some, s128, goCopy_zero_all _ _ (by rfl)]; rfl
  · unfold Checksum128WithSeed; rw [e, Option.map_some, Option.map_some, s128]; rfl

/-- Lengths for which the exported functions follow XXH3: 4 to 240 bytes, and more when the length is not a multiple of 64. -/
def xxh3Good (n : Nat) : Prop := 4 ≤ n ∧ (n ≤ 240 ∨ n % 64 ≠ 0)

theorem xxh3_long64 (m sec : Bytes) (k : Spec.XXH3.Key) (hk : k.long = sec) (hsec : 136 ≤ sec.length) (h1 : 240 < m.length) (h2 : m.length % 64 ≠ 0) :
    hashLong64 INIT_ACC m sec = Spec.XXH3.hash64 k m := by
  unfold hashLong64 Spec.XXH3.hash64 Spec.XXH3.hash64With
  rw [if_neg (by omega), if_neg (by omega), hashLong_loop_eq _ _ hsec, if_pos h2, merge_eq, hk]; rfl
theorem xxh3_long128 (m sec : Bytes) (k : Spec.XXH3.Key) (hk : k.long = sec) (hsec : 136 ≤ sec.length) (h1 : 240 < m.length) (h2 : m.length % 64 ≠ 0) :
    hashLong128 INIT_ACC m sec = ofPair (Spec.XXH3.hash128 k m) := by
  unfold hashLong128 Spec.XXH3.hash128 Spec.XXH3.hash128With mergeAccs_128b
  rw [if_neg (by omega), if_neg (by omega), hashLong_loop_eq _ _ hsec, if_pos h2, merge_eq, merge_eq, hk,
    show (Spec.XXH3.longAcc sec m).length = 8 from acc_length _ _ _ _]; rfl

theorem xxh3_bits64 (m sec : Bytes) (seed : U64) (f : Bytes → U64 → Bytes → U64) (k : Spec.XXH3.Key) (h1 : k.short = sec) (h2 : k.seed = seed) (hg : xxh3Good m.length)
    (hf : 240 < m.length → m.length % 64 ≠ 0 → f m seed sec = Spec.XXH3.hash64 k m) : Hash_64bits_internal m seed sec f = Spec.XXH3.hash64 k m := by
  by_cases hm : m.length ≤ 240
  · rw [bits64_short m sec seed f k h1 h2 hm]; exact xxh3_fin64 _ _ _ _ hg.1
  · have : m.length % 64 ≠ 0 := hg.2.resolve_left hm
    rw [← hf (by omega) this]
    unfold Hash_64bits_internal
    rw [if_neg (by omega), if_neg (by omega), if_neg hm]
theorem xxh3_bits128 (m sec : Bytes) (seed : U64) (f : Bytes → U64 → Bytes → Uint128) (k : Spec.XXH3.Key) (h1 : k.short = sec) (h2 : k.seed = seed) (hg : xxh3Good m.length)
    (hf : 240 < m.length → m.length % 64 ≠ 0 → f m seed sec = ofPair (Spec.XXH3.hash128 k m)) : Hash_128bits_internal m seed sec f = ofPair (Spec.XXH3.hash128 k m) := by
  by_cases hm : m.length ≤ 240
  · rw [bits128_short m sec seed f k h1 h2 hm, xxh3_fin128 _ Spec.XXH3.avalanche64 _ _ hg.1]; rfl
  · have : m.length % 64 ≠ 0 := hg.2.resolve_left hm
    rw [← hf (by omega) this]
    unfold Hash_128bits_internal
    rw [if_neg (by omega), if_neg (by omega), if_neg hm]

/-- C102: the exported 64-bit functions, for the good lengths. -/
theorem xxh3_Hash_64bits_partial (m sec : Bytes) (seed : U64) (hsec : 136 ≤ sec.length) (hg : xxh3Good m.length) :
    Hash_64bits m = Spec.XXH3.hash64 (.ofSeed 0#64) m ∧
    Hash_64bits_withSeed m seed = Spec.XXH3.hash64 (.ofSeed seed) m ∧
    Hash_64bits_withSecret m sec = Spec.XXH3.hash64 (.ofSecret sec) m ∧
    Hash_64bits_withSecretandSeed m sec seed = Spec.XXH3.hash64 (.ofBoth sec seed) m := by
  have hkl : 136 ≤ kSecret.length := by decide +kernel
  refine ⟨?_, ?_, ?_, ?_⟩
  · exact xxh3_bits64 m _ _ _ _ rfl rfl hg fun a b => xxh3_long64 m kSecret _ (derive_zero.trans kSecret_eq.symm) hkl a b
  · refine xxh3_bits64 m _ _ _ _ rfl rfl hg fun a b => ?_
    unfold hashLong64_withSeed
    by_cases h0 : seed = 0#64
    · rw [if_pos h0]; subst h0; exact xxh3_long64 m kSecret _ (derive_zero.trans kSecret_eq.symm) hkl a b
    · rw [if_neg h0, custom_eq]; exact xxh3_long64 m _ _ rfl (by rw [derive_length]; decide) a b
  · exact xxh3_bits64 m _ _ _ _ rfl rfl hg fun a b => xxh3_long64 m sec _ rfl hsec a b
  · unfold Hash_64bits_withSecretandSeed
    by_cases hm : m.length ≤ 240
    · rw [if_pos hm]; exact xxh3_bits64 m _ _ _ _ rfl rfl hg fun a _ => absurd a (by omega)
    · rw [if_neg hm]; exact xxh3_long64 m sec _ rfl hsec (by omega) (hg.2.resolve_left hm)

/-- C102: the exported 128-bit functions, for the good lengths. -/
theorem xxh3_Hash_128bits_partial (m sec : Bytes) (seed : U64) (hsec : 136 ≤ sec.length) (hg : xxh3Good m.length) :
    Hash_128bits m = ofPair (Spec.XXH3.hash128 (.ofSeed 0#64) m) ∧
    Hash_128bits_withSeed m seed = ofPair (Spec.XXH3.hash128 (.ofSeed seed) m) ∧
    Hash_128bits_withSecret m sec = ofPair (Spec.XXH3.hash128 (.ofSecret sec) m) ∧
    Hash_128bits_withSecretandSeed m sec seed = ofPair (Spec.XXH3.hash128 (.ofBoth sec seed) m) := by
  have hkl : 136 ≤ kSecret.length := by decide +kernel
  refine ⟨?_, ?_, ?_, ?_⟩
  · exact xxh3_bits128 m _ _ _ _ rfl rfl hg fun a b => xxh3_long128 m kSecret _ (derive_zero.trans kSecret_eq.symm) hkl a b
  · refine xxh3_bits128 m _ _ _ _ rfl rfl hg fun a b => ?_
    unfold hashLong128_withSeed
    by_cases h0 : seed = 0#64
    · rw [if_pos h0]; subst h0; exact xxh3_long128 m kSecret _ (derive_zero.trans kSecret_eq.symm) hkl a b
    · rw [if_neg h0, custom_eq]; exact xxh3_long128 m _ _ rfl (by rw [derive_length]; decide) a b
  · exact xxh3_bits128 m _ _ _ _ rfl rfl hg fun a b => xxh3_long128 m sec _ rfl hsec a b
  · unfold Hash_128bits_withSecretandSeed
    by_cases hm : m.length ≤ 240
    · rw [if_pos hm]; exact xxh3_bits128 m _ _ _ _ rfl rfl hg fun a _ => absurd a (by omega)
    · rw [if_neg hm]; exact xxh3_long128 m sec _ rfl hsec (by omega) (hg.2.resolve_left hm)

/-- C102: for other long messages the functions leave the last stripe out. -/
theorem xxh3_Hash_64bits_long (m : Bytes) (h1 : 240 < m.length) (h2 : m.length % 64 = 0) :
    Hash_64bits m = Spec.XXH3.merge ((fullBlocks 64 (m.take (m.length - 1))).foldl (Spec.XXH3.stripe Spec.XXH3.kSecret) (Spec.XXH3.init, 0)).1
      Spec.XXH3.kSecret 11 (BitVec.ofNat 64 m.length * Spec.XXH3.P64_1) := by
  unfold Hash_64bits Hash_64bits_internal hashLong64_default hashLong64
  rw [if_neg (by omega), if_neg (by omega), if_neg (by omega), hashLong_loop_eq _ _ (by decide +kernel), if_neg (by simp [h2]), merge_eq]; rfl

/-- C100 (violated): 256 zero bytes. -/
theorem xxh3_Hash_violated : Hash_64bits (zeros 256) ≠ Spec.XXH3.hash64 (.ofSeed 0#64) (zeros 256) ∧ Hash_128bits (zeros 256) ≠ ofPair (Spec.XXH3.hash128 (.ofSeed 0#64) (zeros 256)) ∧
    Checksum64WithSeed (zeros 256) 0#64 ≠ some (Hash_64bits (zeros 256)) := by
  have h1 : Hash_64bits (zeros 256) ≠ Spec.XXH3.hash64 (.ofSeed 0#64) (zeros 256) := by decide +kernel
  refine ⟨h1, by decide +kernel, ?_⟩
  rw [(xxh3_oneshot 0#64 (zeros 256) (by rw [zeros_length]; decide) (by rw [zeros_length]; decide)).2.1]
  intro h
  exact h1 (Option.some.inj h).symm

/-- C100 (violated): the finaliser for up to 3 bytes. -/
theorem xxh3_Hash_short_violated : Hash_64bits [] ≠ Spec.XXH3.hash64 (.ofSeed 0#64) [] ∧ Hash_64bits [1#8, 2#8, 3#8] ≠ Spec.XXH3.hash64 (.ofSeed 0#64) [1#8, 2#8, 3#8] := by
  constructor <;> decide +kernel

example : xxh3Good 240 ∧ xxh3Good 241 ∧ xxh3Good 1000 ∧ ¬ xxh3Good 1024 ∧ ¬ xxh3Good 3 := by unfold xxh3Good; decide
-- the reference value of the xxHash project for 195 bytes of its test message
example : Spec.XXH3.hash64 (.ofSeed 0#64) (Spec.XXH3.sanity 195) = 0xCD94217EE362EC3A#64 := by decide +kernel

end Verif.Props
