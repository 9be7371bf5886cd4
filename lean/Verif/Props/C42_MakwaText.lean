import Verif.Lemmas.MakwaText
import Verif.Lemmas.MakwaRecover
/-
C42: the text form of a Makwa digest.  The property asks that UnmarshalText(MarshalText(d)) = d for every digest Hash can produce and that UnmarshalText never panics.
The code satisfies neither: the work factor comes back as man^(log+1) instead of man * 2^log, which is only the same when the mantissa is 2 or the logarithm is 0.
-/
namespace Verif.Props
open Verif.Makwa
open Verif.Spec (beNat)

/-- Which part of the round trip holds: for every digest d made by Hash with a work factor that fits into 32 bits and a PostHashLen that is not negative, MarshalText
succeeds and UnmarshalText, into whatever digest d0 it is called on, restores every field except possibly the work factor; and the work factor is restored exactly
when it is 3 or a power of two.  Missing for the full property: work factors 3·2^k, k > 0 (`C42_makwa_text_violated`). -/
theorem C42_makwa_text_partial (P : Params) (hA : P.A.Good) (pw salt : Bytes) (wf : Int) (pre : Bool) (post : Int) (d d0 : Digest)
    (h : Hash P pw salt wf pre post = .ok d) (hwf : 0 ≤ wf ∧ wf < 2 ^ 32) (hpost : 0 ≤ post) :
    ∃ text d', d.marshalText = .ok text ∧ d0.unmarshalText text = .ok d' ∧
      d'.modulusID = d.modulusID ∧ d'.hash = d.hash ∧ d'.salt = d.salt ∧ d'.preHash = d.preHash ∧ d'.postHashLen = d.postHashLen ∧
      (d' = d ↔ (wf = 3 ∨ ∃ k : Nat, wf = 2 ^ (k + 1))) := by
  obtain ⟨hw, _, _, _, he⟩ := (Hash_ok P pw salt wf pre post d).1 h
  cases hm : wfMant (u32 wf) with
  | none => rw [hm] at hw; simp at hw
  | some r =>
  obtain ⟨m, j⟩ := r
  have e1 : d.workFactor = wf := by rw [he]
  have e2 : d.postHashLen = post := by rw [he]
  have hp : d.postHashLen = 0 ∨ (0 < d.postHashLen ∧ d.postHashLen = d.hash.length) := by
    rw [e2]
    by_cases h0 : post = 0
    · left; exact h0
    · right
      refine ⟨by omega, ?_⟩
      rw [he]
      dsimp only
      rw [if_pos (by omega), kdf_length P.A hA]
      omega
  obtain ⟨text, t1, t2⟩ := unmarshal_marshal d d0 m j (by rw [e1]; exact hm) hp
  refine ⟨text, _, t1, t2, rfl, rfl, rfl, rfl, rfl, ?_⟩
  obtain ⟨hm23, hj, hv⟩ := wfMant_spec _ _ _ hm
  have hwn : wf = ((m.toNat * 2 ^ j : Nat) : Int) := by
    rw [← hv]; unfold u32; rw [BitVec.toNat_ofInt]; omega
  have key : ({ d with workFactor := ((m.toNat ^ (j + 1) : Nat) : Int) } = d) ↔ m.toNat ^ (j + 1) = m.toNat * 2 ^ j := by
    constructor
    · intro e
      have := congrArg Digest.workFactor e
      dsimp only at this
      rw [e1, hwn] at this
      exact_mod_cast this
    · intro e
      rw [e, ← hwn, ← e1]
  rw [key, hwn]
  rcases hm23 with rfl | rfl
  · have e : (2 : U32).toNat = 2 := rfl
    rw [e]
    exact ⟨fun _ => .inr ⟨j, by push_cast; ring⟩, fun _ => by ring⟩
  · have e : (3 : U32).toNat = 3 := rfl
    rw [e]
    constructor
    · intro h
      have h' : 3 ^ j = 2 ^ j := by rw [Nat.pow_succ, Nat.mul_comm] at h; exact Nat.eq_of_mul_eq_mul_left (by omega) h
      have : j = 0 := by
        by_contra hj0
        have := Nat.pow_lt_pow_left (show 2 < 3 by omega) hj0
        omega
      subst this; left; norm_num
    · rintro (h | ⟨k, h⟩)
      · have h' : 3 * 2 ^ j = 3 := by exact_mod_cast h
        have : 2 ^ j = 2 ^ 0 := by omega
        have : j = 0 := Nat.pow_right_injective (Nat.le_refl 2) this
        subst this; rfl
      · have h' : 3 * 2 ^ j = 2 ^ (k + 1) := by exact_mod_cast h
        have h3 : 3 ∣ 2 ^ (k + 1) := Dvd.intro _ h'
        have := (Nat.Prime.dvd_of_dvd_pow Nat.prime_three h3)
        omega

/-- For every modulus, password, salt and mode that Hash accepts, the work factor 6 comes back as 9. -/
theorem C42_makwa_text_violated (P : Params) (hA : P.A.Good) (pw salt : Bytes) (pre : Bool) (post : Int) (hpost : 0 ≤ post) (d d0 : Digest)
    (h : Hash P pw salt 6 pre post = .ok d) :
    ∃ text, d.marshalText = .ok text ∧ d0.unmarshalText text = .ok { d with workFactor := 9 } ∧ d0.unmarshalText text ≠ .ok d := by
  obtain ⟨hw, _, _, _, he⟩ := (Hash_ok P pw salt 6 pre post d).1 h
  have e1 : d.workFactor = 6 := by rw [he]
  have e2 : d.postHashLen = post := by rw [he]
  have hp : d.postHashLen = 0 ∨ (0 < d.postHashLen ∧ d.postHashLen = d.hash.length) := by
    rw [e2]
    by_cases h0 : post = 0
    · left; exact h0
    · right
      refine ⟨by omega, ?_⟩
      rw [he]
      dsimp only
      rw [if_pos (by omega), kdf_length P.A hA]
      omega
  obtain ⟨text, t1, t2⟩ := unmarshal_marshal d d0 3 1 (by rw [e1]; decide +kernel) hp
  have e : ((((3 : U32).toNat ^ (1 + 1) : Nat)) : Int) = 9 := rfl
  rw [e] at t2
  refine ⟨text, t1, t2, ?_⟩
  rw [t2]
  intro hc
  injection hc with hc
  have := congrArg Digest.workFactor hc
  rw [e1] at this
  simp at this

/-- A negative PostHashLen, which Hash accepts (it means "none"), comes back as 0. -/
theorem C42_makwa_negative_violated (P : Params) (pw salt : Bytes) (wf : Int) (pre : Bool) (post : Int) (hpost : post < 0) (d d0 d' : Digest) (text : Bytes)
    (h : Hash P pw salt wf pre post = .ok d) (hd : { d with postHashLen := 0 }.marshalText = .ok text) (hu : d0.unmarshalText text = .ok d') :
    d.marshalText = .ok text ∧ d' ≠ d := by
  obtain ⟨hw, _, _, _, he⟩ := (Hash_ok P pw salt wf pre post d).1 h
  have e1 : d.workFactor = wf := by rw [he]
  have e2 : d.postHashLen = post := by rw [he]
  have t : d.marshalText = .ok text := by
    rw [← hd]; unfold Digest.marshalText; rw [e2]; simp only [if_neg (show ¬ post > 0 by omega), gt_iff_lt, lt_self_iff_false, if_false]
  refine ⟨t, ?_⟩
  cases hm : wfMant (u32 wf) with
  | none => rw [hm] at hw; simp at hw
  | some r =>
  obtain ⟨m, j⟩ := r
  obtain ⟨text', t1, t2⟩ := unmarshal_marshal { d with postHashLen := 0 } d0 m j (by dsimp only; rw [e1]; exact hm) (.inl rfl)
  have et : text' = text := by rw [hd] at t1; injection t1 with t1; exact t1.symm
  rw [et, hu] at t2
  injection t2 with t2
  intro hc
  have := congrArg Digest.postHashLen (t2.symm.trans hc)
  dsimp only at this
  omega

/-- UnmarshalText panics on the empty text, on a text with one field, with a short second field and with three fields. -/
theorem C42_makwa_panic_violated (d : Digest) : d.unmarshalText [] = .panics ∧ d.unmarshalText [ch 'A', ch 'A'] = .panics ∧
    d.unmarshalText [ch '_', ch 'n'] = .panics ∧ d.unmarshalText [ch '_', ch 'n', ch '2', ch '1', ch '_'] = .panics := by
  refine ⟨?_, ?_, ?_, ?_⟩ <;> rfl

/-- The base64 variant loses nothing: decoding what was encoded gives the bytes back. -/
theorem C42_makwa_b64 (b : Bytes) : b64Decode (b64Encode b) = some b := b64_roundtrip b

/-! Non-vacuity: with a one-byte "MAC" and a 1280-bit modulus Hash succeeds, for a work factor that survives and for one that does not. -/
def toyAlg : Alg := { mac := fun _ _ => [1], size := 1 }
theorem toyAlg_good : toyAlg.Good := ⟨by decide, by intro k m; rfl⟩
def toyParams : Params := { N := 2 ^ 1280 - 1, A := toyAlg }
example : ∃ d, Hash toyParams [0x70, 0x77] [1, 2, 3] 2 false 0 = .ok d :=
  ⟨_, (Hash_ok _ _ _ _ _ _ _).2 ⟨by decide +kernel, by decide +kernel, by decide +kernel, by decide +kernel, rfl⟩⟩
example : ∃ d, Hash toyParams [0x70, 0x77] [1, 2, 3] 6 true 12 = .ok d :=
  ⟨_, (Hash_ok _ _ _ _ _ _ _).2 ⟨by decide +kernel, by decide +kernel, by decide +kernel, by decide +kernel, rfl⟩⟩
example : ∃ d, Hash toyParams [0x70, 0x77] [1, 2, 3] 2 false (-1) = .ok d :=
  ⟨_, (Hash_ok _ _ _ _ _ _ _).2 ⟨by decide +kernel, by decide +kernel, by decide +kernel, by decide +kernel, rfl⟩⟩

end Verif.Props
