import Verif.Lemmas.Lyra2Main
/-
C108–C111: `Lyra2` of packages lyra2re and lyra2re2.
-/
namespace Verif.Props
open Verif.Lyra2

/-- C108: with time cost 0 or 1 and lengths that are multiples of 8, `lyra2re2.Lyra2` writes the Lyra2 key of length `len(k)`, whatever was in `k` before, for
every number of rows from 2 and of columns such that the padded input fits in the matrix. Missing: the other lengths and time costs, where the
property is false, see below. -/
theorem C108_lyra2_partial (k pwd salt : Bytes) (T R C : Nat) (hR : 2 ≤ R) (hR' : R < 2 ^ 62) (hT : T ≤ 1) (h1 : pwd.length % 8 = 0) (h2 : salt.length % 8 = 0)
    (hs : (salt.length + pwd.length + 48) / 64 + 1 ≤ R * (12 * C) / 8) :
    v2 k pwd salt T R C = some (Spec.Lyra2.key 8 k.length pwd salt T R C) :=
  lyra2_eq hR hR' hT k pwd salt h1 h2 (by omega) (by omega)

/-- C108 is false for time costs above 1: `Lyra2` panics for all other arguments (the even passes take the remainder of a negative number). -/
theorem C108_time_cost_violated (k pwd salt : Bytes) (T R C : Nat) (hR' : R < 2 ^ 62) (hT : 2 ≤ T) : v2 k pwd salt T R C = none ∧ v1 k pwd salt T R C = none :=
  ⟨(((lyra2_some (stride := 8) hR' k pwd salt).resolve_left fun h => by omega)).1, (((lyra2_some (stride := 64) hR' k pwd salt).resolve_left fun h => by omega)).1⟩

/-- C108 is false for other lengths: the last `len % 8` bytes of password and salt do not matter, so every password whose length is not a multiple of 8 has
another one with the same keys for all salts and parameters. -/
theorem C108_trailing_bytes_violated (pwd : Bytes) (h : pwd.length % 8 ≠ 0) :
    ∃ pwd' : Bytes, pwd'.length = pwd.length ∧ pwd' ≠ pwd ∧ ∀ k salt T R C, v1 k pwd' salt T R C = v1 k pwd salt T R C ∧ v2 k pwd' salt T R C = v2 k pwd salt T R C := by
  have hl : pwd.length - 1 < pwd.length := by omega
  refine ⟨pwd.set (pwd.length - 1) (pwd[pwd.length - 1] + 1#8), List.length_set .., ?_, ?_⟩
  · intro he
    have := congrArg (fun l => l[pwd.length - 1]?) he
    simp only [List.getElem?_set_self hl, List.getElem?_eq_getElem hl, Option.some.injEq] at this
    revert this
    generalize pwd[pwd.length - 1] = x
    revert x
    decide
  · intro k salt T R C
    have hp : (pwd.set (pwd.length - 1) (pwd[pwd.length - 1] + 1#8)).length = pwd.length := List.length_set ..
    have ht : (pwd.set (pwd.length - 1) (pwd[pwd.length - 1] + 1#8)).take (8 * ((pwd.set (pwd.length - 1) (pwd[pwd.length - 1] + 1#8)).length / 8)) =
        pwd.take (8 * ((pwd.set (pwd.length - 1) (pwd[pwd.length - 1] + 1#8)).length / 8)) := by
      rw [hp, List.take_set, List.set_eq_of_length_le]
      rw [List.length_take]; omega
    exact ⟨lyra2_words 64 k _ pwd salt salt T R C hp rfl ht rfl, lyra2_words 8 k _ pwd salt salt T R C hp rfl ht rfl⟩

/-- C109: `lyra2re.Lyra2` (version 1) writes the key of Lyra2 whose second and later input blocks are read at words 64, 128, ... instead of 8, 16, ...; so it is
Lyra2 when the input has one block. -/
theorem C109_lyra2v1_partial (k pwd salt : Bytes) (T R C : Nat) (hR : 2 ≤ R) (hR' : R < 2 ^ 62) (hT : T ≤ 1) (h1 : pwd.length % 8 = 0) (h2 : salt.length % 8 = 0)
    (hs : (salt.length + pwd.length + 48) / 64 + 1 ≤ R * (12 * C) / 8) (hs' : (salt.length + pwd.length + 48) / 64 * 64 + 8 ≤ R * (12 * C)) :
    v1 k pwd salt T R C = some (Spec.Lyra2.key 64 k.length pwd salt T R C) ∧
      (salt.length + pwd.length + 48 < 64 → v1 k pwd salt T R C = some (Spec.Lyra2.key 8 k.length pwd salt T R C)) := by
  refine ⟨lyra2_eq hR hR' hT k pwd salt h1 h2 (by omega) (by omega), fun hlt => ?_⟩
  rw [show v1 k pwd salt T R C = _ from lyra2_eq hR hR' hT k pwd salt h1 h2 (by omega) (by omega)]
  have hl : (Spec.Lyra2.input k.length pwd salt T R C).length < 64 := by
    rw [input_eq _ _ _ _ _ _ h1 h2, flat_length, inWords_length]; omega
  unfold Spec.Lyra2.key
  rw [boot_one 64 8 _ hl]

/-- C109: with inputs of 64 to 463 bytes in all, only the first 64 bytes of password and salt matter to version 1: a salt after a 64-byte password is
ignored, and so is the rest of a longer password. -/
theorem C109_first_block_only_violated (k pwd salt pwd' salt' : Bytes) (T R C : Nat) (hR' : R < 2 ^ 62) (hp : pwd.length = pwd'.length) (hsl : salt.length = salt'.length)
    (h1 : pwd.length % 8 = 0) (h2 : salt.length % 8 = 0) (h64 : 64 ≤ pwd.length + salt.length) (hlt : pwd.length + salt.length < 464)
    (h : (pwd ++ salt).take 64 = (pwd' ++ salt').take 64) :
    v1 k pwd salt T R C = v1 k pwd' salt' T R C := by
  have hlen : (pwd ++ salt).length = pwd.length + salt.length := List.length_append
  have hlen' : (pwd' ++ salt').length = pwd'.length + salt'.length := List.length_append
  by_cases hc : ((salt.length + pwd.length + 6 * 8) / 64 + 1) * 8 ≤ R * (12 * C) ∧ (salt.length + pwd.length + 6 * 8) / 64 * 64 + 8 ≤ R * (12 * C) ∧ 2 ≤ R ∧ T ≤ 1
  · have e1 := lyra2_eq (stride := 64) hc.2.2.1 hR' hc.2.2.2 k pwd salt h1 h2 hc.1 hc.2.1
    have e2 := lyra2_eq (stride := 64) hc.2.2.1 hR' hc.2.2.2 k pwd' salt' (by omega) (by omega) (by rw [← hp, ← hsl]; exact hc.1) (by rw [← hp, ← hsl]; exact hc.2.1)
    show lyra2 64 k pwd salt T R C = lyra2 64 k pwd' salt' T R C
    rw [e1, e2]
    have hb : Spec.Lyra2.bootstrap 64 (Spec.Lyra2.input k.length pwd salt T R C) = Spec.Lyra2.bootstrap 64 (Spec.Lyra2.input k.length pwd' salt' T R C) := by
      have l1 : (Spec.Lyra2.input k.length pwd salt T R C).length = pwd.length + salt.length + 48 := by
        rw [input_eq _ _ _ _ _ _ h1 h2, flat_length, inWords_length]; omega
      have l2 : (Spec.Lyra2.input k.length pwd' salt' T R C).length = pwd.length + salt.length + 48 := by
        rw [input_eq _ _ _ _ _ _ (by omega) (by omega), flat_length, inWords_length]; omega
      apply boot64_congr _ _ (by rw [l1, l2]) (by omega) (by omega)
      unfold Spec.Lyra2.input
      rw [List.take_append_of_le_length (l₁ := pwd ++ salt) (by omega), List.take_append_of_le_length (l₁ := pwd' ++ salt') (by omega), h]
    unfold Spec.Lyra2.key
    rw [hb]
  · have e1 := ((lyra2_some (stride := 64) (R := R) (C := C) (T := T) hR' k pwd salt).resolve_left fun h => hc h.2).1
    have e2 := ((lyra2_some (stride := 64) (R := R) (C := C) (T := T) hR' k pwd' salt').resolve_left fun h => hc (by rw [hp, hsl]; exact h.2)).1
    show lyra2 64 k pwd salt T R C = lyra2 64 k pwd' salt' T R C
    rw [e1, e2]

/-- C110: for all inputs (of any lengths), `Lyra2` returns exactly when there are at least two rows, the time cost is 0 or 1 and the matrix of
`R * 12 C` words holds the padded input (in version 1, also the place where it looks for the last block). -/
theorem C110_lyra2_panics (k pwd salt : Bytes) (T R C : Nat) (hR' : R < 2 ^ 62) :
    ((v2 k pwd salt T R C).isSome ↔ 2 ≤ R ∧ T ≤ 1 ∧ 8 * ((pwd.length + salt.length + 48) / 64 + 1) ≤ 12 * R * C) ∧
    ((v1 k pwd salt T R C).isSome ↔ 2 ≤ R ∧ T ≤ 1 ∧ 64 * ((pwd.length + salt.length + 48) / 64) + 8 ≤ 12 * R * C) := by
  have hm : R * (12 * C) = 12 * R * C := by rw [← Nat.mul_assoc, Nat.mul_comm R 12]
  have hsum : pwd.length + salt.length + 48 = salt.length + pwd.length + 6 * 8 := by omega
  rw [hsum, ← hm]
  constructor
  · rcases lyra2_some (stride := 8) (R := R) (C := C) (T := T) hR' k pwd salt with ⟨⟨o, ho', _⟩, h⟩ | ⟨ho, h⟩
    · have ho := ho' k rfl
      rw [show v2 k pwd salt T R C = some o from ho]
      exact ⟨fun _ => by omega, fun _ => rfl⟩
    · rw [show v2 k pwd salt T R C = none from ho]
      exact ⟨fun h => by simp at h, fun h' => absurd ⟨by omega, by omega, by omega, by omega⟩ h⟩
  · rcases lyra2_some (stride := 64) (R := R) (C := C) (T := T) hR' k pwd salt with ⟨⟨o, ho', _⟩, h⟩ | ⟨ho, h⟩
    · have ho := ho' k rfl
      rw [show v1 k pwd salt T R C = some o from ho]
      exact ⟨fun _ => by omega, fun _ => rfl⟩
    · rw [show v1 k pwd salt T R C = none from ho]
      exact ⟨fun h => by simp at h, fun h' => absurd ⟨by omega, by omega, by omega, by omega⟩ h⟩

/-- C111: all of `k` is filled and its old contents do not matter, for all inputs. -/
theorem C111_lyra2_output (k k' pwd salt : Bytes) (T R C : Nat) (hR' : R < 2 ^ 62) (hk : k'.length = k.length) :
    (v2 k' pwd salt T R C = v2 k pwd salt T R C ∧ v1 k' pwd salt T R C = v1 k pwd salt T R C) ∧
    ∀ o, (v2 k pwd salt T R C = some o → o.length = k.length) ∧ (v1 k pwd salt T R C = some o → o.length = k.length) := by
  have key : ∀ stride, lyra2 stride k' pwd salt T R C = lyra2 stride k pwd salt T R C ∧ ∀ o, lyra2 stride k pwd salt T R C = some o → o.length = k.length := by
    intro stride
    rcases lyra2_some (stride := stride) (R := R) (C := C) (T := T) hR' k pwd salt with ⟨⟨o', ho, hl⟩, _⟩ | ⟨ho, hn⟩
    · refine ⟨by rw [ho k' hk, ho k rfl], fun o h => ?_⟩
      rw [ho k rfl] at h
      rw [← Option.some.inj h]; exact hl
    · refine ⟨?_, fun o h => by rw [ho] at h; cases h⟩
      rw [ho]
      exact ((lyra2_some (stride := stride) (R := R) (C := C) (T := T) hR' k' pwd salt).resolve_left fun h => hn h.2).1
  exact ⟨⟨(key 8).1, (key 64).1⟩, fun o => ⟨(key 8).2 o, (key 64).2 o⟩⟩

/-- The test vector of lyra2re2/lyra2re_test.go needs 8 rows of 8 columns and passes through all phases. -/
example : 2 ≤ 8 ∧ 8 < 2 ^ 62 ∧ 1 ≤ 1 ∧ (zeros 32).length % 8 = 0 ∧ ((zeros 32).length + (zeros 32).length + 48) / 64 + 1 ≤ 8 * (12 * 8) / 8 ∧
    ((zeros 32).length + (zeros 32).length + 48) / 64 * 64 + 8 ≤ 8 * (12 * 8) := by decide
/-- A salt that is ignored by version 1. -/
example : (zeros 64 ++ [1#8, 2#8, 3#8, 4#8, 5#8, 6#8, 7#8, 8#8]).take 64 = (zeros 64 ++ zeros 8).take 64 ∧ 64 ≤ (zeros 64).length + (zeros 8).length ∧ (zeros 64).length + (zeros 8).length < 464 := by decide
example : (zeros 3).length % 8 ≠ 0 := by decide

end Verif.Props
