import Verif.Lemmas.XXH3Obj
import Verif.HistAuto
/-
xxhash/xxh3: objects and functions against XXH3 (C99 to C102).
-/
namespace Verif.Props
open Verif.XXH3

/-- Allowed calls after `n` bytes: no `Write` that takes a non-empty message to a multiple of 256 with 256 to 319 bytes at once,
no message of 2^64 bytes or more, and `Sum` from `low` bytes on. -/
def xxh3Ok (low n : Nat) : Op → Prop
  | .write p => ¬ (0 < n ∧ 256 ≤ p.length ∧ p.length < 320 ∧ (n + p.length) % 256 = 0) ∧ n + p.length < 2 ^ 64
  | .sum _ => low ≤ n
  | _ => True
/-- The number of bytes after a call. -/
def xxh3Next (n : Nat) : Op → Nat
  | .write p => n + p.length
  | .reset => 0
  | _ => n

theorem xxh3_obj64 {seed : U64} {sec : Bytes} {k : Spec.XXH3.Key} (hk : KeyOk seed sec k) (low : Nat) (H : Bytes → U64)
    (hH : ∀ m, low ≤ m.length → Spec.XXH3.hash64With Spec.XXH3.avalanche k m = H m) :
    RefinesOn (Permits (xxh3Ok low) xxh3Next 0) impl64 (newDigest seed sec) { H := fun m => be64 (H m), size := 8, blockSize := 256 } := by
  refine refinesOn_permits_of_sim _ _ _ _ _ _ (fun d n m => Rep seed sec d m ∧ n = m.length ∧ m.length < 2 ^ 64) ⟨new_rep seed sec hk.1, rfl, by decide⟩ ?_ ?_ ?_ ?_ ?_
  · rintro d n m p ⟨h, rfl, hl⟩ hok
    obtain ⟨d', e, h'⟩ := (write_rep hk.1 h p).2 hok.1
    exact ⟨d', e, h', by rw [List.length_append]; rfl, by rw [List.length_append]; exact hok.2⟩
  · rintro d n m b ⟨h, rfl, hl⟩ hok
    refine ⟨d, ?_, h, rfl, hl⟩
    show some (d, b ++ be64 d.Sum64) = _
    rw [sum64_eq hk h hl, hH m hok]
  · rintro d n m ⟨h, rfl, hl⟩ _
    exact ⟨reset_rep seed sec hk.1 d h.hseed h.hsec h.sl, rfl, by decide⟩
  · rintro d n m ⟨h, rfl, hl⟩; exact ⟨rfl, fun _ => ⟨h, rfl, hl⟩⟩
  · rintro d n m ⟨h, rfl, hl⟩; exact ⟨rfl, fun _ => ⟨h, rfl, hl⟩⟩

theorem xxh3_obj128 {seed : U64} {sec : Bytes} {k : Spec.XXH3.Key} (hk : KeyOk seed sec k) (low : Nat) (H : Bytes → Spec.XXH3.W128)
    (hH : ∀ m, low ≤ m.length → Spec.XXH3.hash128With Spec.XXH3.avalanche k m = H m) :
    RefinesOn (Permits (xxh3Ok low) xxh3Next 0) impl128 (newDigest seed sec) { H := fun m => be64 (H m).2 ++ be64 (H m).1, size := 16, blockSize := 256 } := by
  refine refinesOn_permits_of_sim _ _ _ _ _ _ (fun d n m => Rep seed sec d m ∧ n = m.length ∧ m.length < 2 ^ 64) ⟨new_rep seed sec hk.1, rfl, by decide⟩ ?_ ?_ ?_ ?_ ?_
  · rintro d n m p ⟨h, rfl, hl⟩ hok
    obtain ⟨d', e, h'⟩ := (write_rep hk.1 h p).2 hok.1
    exact ⟨d', e, h', by rw [List.length_append]; rfl, by rw [List.length_append]; exact hok.2⟩
  · rintro d n m b ⟨h, rfl, hl⟩ hok
    refine ⟨d, ?_, h, rfl, hl⟩
    show some (d, b ++ d.Sum128.bytes) = _
    rw [sum128_eq hk h hl, hH m hok]; rfl
  · rintro d n m ⟨h, rfl, hl⟩ _
    exact ⟨reset_rep seed sec hk.1 d h.hseed h.hsec h.sl, rfl, by decide⟩
  · rintro d n m ⟨h, rfl, hl⟩; exact ⟨rfl, fun _ => ⟨h, rfl, hl⟩⟩
  · rintro d n m ⟨h, rfl, hl⟩; exact ⟨rfl, fun _ => ⟨h, rfl, hl⟩⟩

/-- From 4 bytes on the finaliser for shorter messages plays no part. -/
theorem xxh3_fin64 (f g : U64 → U64) (k : Spec.XXH3.Key) (m : Bytes) (h : 4 ≤ m.length) : Spec.XXH3.hash64With f k m = Spec.XXH3.hash64With g k m := by
  unfold Spec.XXH3.hash64With Spec.XXH3.short64
  dsimp only
  rw [if_neg (show ¬ m.length = 0 by omega), if_neg (show ¬ m.length = 0 by omega), if_neg (show ¬ m.length ≤ 3 by omega), if_neg (show ¬ m.length ≤ 3 by omega)]
theorem xxh3_fin128 (f g : U64 → U64) (k : Spec.XXH3.Key) (m : Bytes) (h : 4 ≤ m.length) : Spec.XXH3.hash128With f k m = Spec.XXH3.hash128With g k m := by
  unfold Spec.XXH3.hash128With Spec.XXH3.short128
  dsimp only
  rw [if_neg (show ¬ m.length = 0 by omega), if_neg (show ¬ m.length = 0 by omega), if_neg (show ¬ m.length ≤ 3 by omega), if_neg (show ¬ m.length ≤ 3 by omega)]

theorem xxh3_seedKey (seed : U64) : KeyOk seed (Spec.XXH3.derive seed) (Spec.XXH3.Key.ofSeed seed) := ⟨by rw [derive_length]; decide, .inl ⟨rfl, rfl⟩⟩
theorem xxh3_secretKey (sec : Bytes) (h : 136 ≤ sec.length) : KeyOk 0#64 sec (Spec.XXH3.Key.ofSecret sec) := ⟨h, .inr ⟨rfl, rfl⟩⟩
theorem xxh3_newSeed (seed : U64) : NewWithSeed seed = newDigest seed (Spec.XXH3.derive seed) := by unfold NewWithSeed; rw [custom_eq]

/-- C101: XXH3 with a seed. -/
theorem xxh3_seed_partial (seed : U64) :
    RefinesOn (Permits (xxh3Ok 4) xxh3Next 0) impl64 (NewWithSeed seed)
      { H := fun m => be64 (Spec.XXH3.hash64 (.ofSeed seed) m), size := 8, blockSize := 256 } ∧
    RefinesOn (Permits (xxh3Ok 4) xxh3Next 0) impl128 (NewWithSeed seed)
      { H := fun m => be64 (Spec.XXH3.hash128 (.ofSeed seed) m).2 ++ be64 (Spec.XXH3.hash128 (.ofSeed seed) m).1, size := 16, blockSize := 256 } := by
  rw [xxh3_newSeed]
  exact ⟨xxh3_obj64 (xxh3_seedKey seed) 4 _ fun m h => xxh3_fin64 _ _ _ _ h, xxh3_obj128 (xxh3_seedKey seed) 4 _ fun m h => xxh3_fin128 _ _ _ _ h⟩

/-- C101: XXH3 with a secret; the constructor refuses exactly the secrets of fewer than 136 bytes. -/
theorem xxh3_secret_partial (sec : Bytes) :
    (sec.length < 136 → NewWithSecret sec = none) ∧
    (136 ≤ sec.length → ∃ d, NewWithSecret sec = some d ∧
      RefinesOn (Permits (xxh3Ok 4) xxh3Next 0) impl64 d { H := fun m => be64 (Spec.XXH3.hash64 (.ofSecret sec) m), size := 8, blockSize := 256 } ∧
      RefinesOn (Permits (xxh3Ok 4) xxh3Next 0) impl128 d
        { H := fun m => be64 (Spec.XXH3.hash128 (.ofSecret sec) m).2 ++ be64 (Spec.XXH3.hash128 (.ofSecret sec) m).1, size := 16, blockSize := 256 }) := by
  unfold NewWithSecret
  refine ⟨fun h => if_pos h, fun h => ⟨_, if_neg (by omega), ?_⟩⟩
  exact ⟨xxh3_obj64 (xxh3_secretKey sec h) 4 _ fun m h => xxh3_fin64 _ _ _ _ h, xxh3_obj128 (xxh3_secretKey sec h) 4 _ fun m h => xxh3_fin128 _ _ _ _ h⟩

/-- C101: for every length, the exact function: XXH3 with the wrong finaliser for up to 3 bytes. -/
theorem xxh3_exact_partial (seed : U64) (sec : Bytes) (h : 136 ≤ sec.length) :
    RefinesOn (Permits (xxh3Ok 0) xxh3Next 0) impl64 (NewWithSeed seed)
      { H := fun m => be64 (Spec.XXH3.hash64With Spec.XXH3.avalanche (.ofSeed seed) m), size := 8, blockSize := 256 } ∧
    (∃ d, NewWithSecret sec = some d ∧ RefinesOn (Permits (xxh3Ok 0) xxh3Next 0) impl64 d
      { H := fun m => be64 (Spec.XXH3.hash64With Spec.XXH3.avalanche (.ofSecret sec) m), size := 8, blockSize := 256 }) := by
  constructor
  · rw [xxh3_newSeed]; exact xxh3_obj64 (xxh3_seedKey seed) 0 _ fun m _ => rfl
  · exact ⟨_, if_neg (by omega), xxh3_obj64 (xxh3_secretKey sec h) 0 _ fun m _ => rfl⟩

example : Permits (xxh3Ok 4) xxh3Next 0 [.write (zeros 255), .write (zeros 256), .sum [1], .write (zeros 1), .write (zeros 512), .sum [], .reset, .write (zeros 512), .sum []] := by
  simp [Permits, xxh3Ok, xxh3Next, zeros_length]
example : 136 ≤ (zeros 150).length := by rw [zeros_length]; decide

/-- C101: exactly when `Write` panics, whatever was written before. -/
theorem xxh3_write_panics_iff (seed : U64) (ps : List Bytes) (p : Bytes) (d : Digest)
    (hd : ps.foldl (fun d q => d.bind fun d => (d.write q).map (·.1)) (some (NewWithSeed seed)) = some d) :
    d.write p = none ↔ 0 < ps.flatten.length ∧ 256 ≤ p.length ∧ p.length < 320 ∧ (ps.flatten.length + p.length) % 256 = 0 := by
  have hk := xxh3_seedKey seed
  have hrep : ∀ (ps : List Bytes) (m : Bytes) (d0 : Digest), Rep seed (Spec.XXH3.derive seed) d0 m →
      ps.foldl (fun d q => d.bind fun d => (d.write q).map (·.1)) (some d0) = some d → Rep seed (Spec.XXH3.derive seed) d (m ++ ps.flatten) := by
    intro ps
    induction ps with
    | nil => intro m d0 h0 he; cases he; simpa using h0
    | cons q ps ih =>
      intro m d0 h0 he
      obtain ⟨hp, hn⟩ := write_rep hk.1 h0 q
      rw [List.foldl_cons] at he
      by_cases hc : Panics m.length q.length
      · rw [Option.bind_some, hp hc] at he
        exfalso
        revert he
        clear ih
        induction ps with
        | nil => intro he; cases he
        | cons r ps ih => exact ih
      · obtain ⟨d', e, h'⟩ := hn hc
        rw [Option.bind_some, e] at he
        have := ih _ _ h' he
        simpa [List.append_assoc] using this
  have h := hrep ps [] _ (by rw [xxh3_newSeed]; exact new_rep seed _ hk.1) hd
  obtain ⟨hp, hn⟩ := write_rep hk.1 h p
  rw [List.nil_append] at hp hn
  constructor
  · intro he
    by_cases hc : Panics ps.flatten.length p.length
    · exact hc
    · obtain ⟨d', e, _⟩ := hn hc
      rw [e] at he; cases he
  · exact hp

/-- C99 (violated): two `Write` calls of 256 bytes: the second panics, for every seed and all contents. -/
theorem xxh3_write_violated (seed : U64) (a b : Bytes) (ha : a.length = 256) (hb : b.length = 256) :
    ∃ d, (NewWithSeed seed).write a = some (d, 256) ∧ d.write b = none := by
  have hk := xxh3_seedKey seed
  obtain ⟨d, e, h⟩ := (write_rep hk.1 (by rw [xxh3_newSeed]; exact new_rep seed _ hk.1 : Rep seed _ (NewWithSeed seed) []) a).2 (fun h => absurd h.1 (by decide))
  refine ⟨d, by rw [e, ha], (write_rep hk.1 h b).1 ⟨?_, by omega, by omega, ?_⟩⟩
  · rw [List.nil_append]; omega
  · rw [List.nil_append, ha, hb]

/-- C99 (violated): the digests of the empty message and of one to three bytes. -/
theorem xxh3_short_violated : (NewWithSeed 0#64).Sum64 ≠ Spec.XXH3.hash64 (.ofSeed 0#64) [] ∧
    (∃ d, (NewWithSeed 0#64).write [1#8] = some (d, 1) ∧ d.Sum64 ≠ Spec.XXH3.hash64 (.ofSeed 0#64) [1#8]) ∧
    (NewWithSeed 0#64).Sum128 ≠ ofPair (Spec.XXH3.hash128 (.ofSeed 0#64) []) := by
  have hk := xxh3_seedKey 0#64
  have h0 : Rep 0#64 (Spec.XXH3.derive 0#64) (NewWithSeed 0#64) [] := by rw [xxh3_newSeed]; exact new_rep 0#64 _ hk.1
  obtain ⟨d, e, h⟩ := (write_rep hk.1 h0 [1#8]).2 (fun h => absurd h.1 (by decide))
  refine ⟨?_, ⟨d, e, ?_⟩, ?_⟩
  · rw [sum64_eq hk h0 (by decide)]; decide +kernel
  · rw [sum64_eq hk h (by decide)]; decide +kernel
  · rw [sum128_eq hk h0 (by decide)]; decide +kernel

end Verif.Props
