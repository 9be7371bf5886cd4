import Verif.Lemmas.AsconAEAD
/-
C24, C57, C58: ascon.AEAD (Ascon-128).
-/
namespace Verif.Props
open Ascon (aeadSeal aeadOpen sealInPlace openInPlace)

/-- C24: `Seal` appends the Ascon-128 ciphertext and tag. -/
theorem C24_ascon_seal (key dst nonce pt ad : Bytes) (hk : key.length = 16) (hn : nonce.length = 16) :
    aeadSeal key dst nonce pt ad = some (dst ++ Spec.Ascon.encrypt key nonce ad pt) :=
  Ascon.seal_spec key dst nonce pt ad hk hn

/-- The overhead is 16 bytes. -/
theorem C24_ascon_length (key nonce pt ad : Bytes) : (Spec.Ascon.encrypt key nonce ad pt).length = pt.length + 16 :=
  Ascon.encrypt_length key nonce ad pt

/-- C24: `Open` answers a plaintext without an error for exactly the strings that are the encryption of that
plaintext under the same key, nonce and associated data. -/
theorem C24_ascon_open (key dst nonce C ad out : Bytes) (hk : key.length = 16) (hn : nonce.length = 16) :
    aeadOpen key dst nonce C ad = some (out, true) ↔
      ∃ pt, out = dst ++ pt ∧ C = Spec.Ascon.encrypt key nonce ad pt := by
  by_cases hC : 16 ≤ C.length
  · obtain ⟨pt, ok, h1, h2, h3, h4⟩ := Ascon.open_spec key dst nonce C ad hk hn hC
    rw [h1]
    constructor
    · intro h
      injection h with h
      injection h with h h'
      exact ⟨pt, h.symm, h3.mp h'⟩
    · rintro ⟨pt', rfl, hpt⟩
      have hl := Ascon.encrypt_length key nonce ad pt'
      rw [← hpt] at hl
      have := h4 pt' (by omega) (by conv => lhs; rw [hpt]
                                    rw [← hpt])
      subst this
      rw [h3.mpr hpt]
  · constructor
    · intro h
      unfold aeadOpen at h
      rw [if_neg (by omega), if_pos (by omega)] at h
      injection h with h
      injection h with _ h
      exact absurd h (by decide)
    · rintro ⟨pt, _, h⟩
      have := Ascon.encrypt_length key nonce ad pt
      rw [← h] at this
      omega

/-- C24: `Open` inverts `Seal`. -/
theorem C24_ascon_roundtrip (key dst dst' nonce pt ad C : Bytes) (hk : key.length = 16) (hn : nonce.length = 16)
    (h : aeadSeal key dst nonce pt ad = some (dst ++ C)) : aeadOpen key dst' nonce C ad = some (dst' ++ pt, true) := by
  rw [C24_ascon_seal _ _ _ _ _ hk hn] at h
  injection h with h
  have := List.append_cancel_left h
  exact (C24_ascon_open _ _ _ _ _ _ hk hn).mpr ⟨pt, rfl, this.symm⟩

/-- C24: with a nonce of the wrong length both panic; otherwise neither does, and a string `Open` does not
accept gets an error. -/
theorem C24_ascon_panics (key dst nonce x ad : Bytes) (hk : key.length = 16) :
    (aeadSeal key dst nonce x ad = none ↔ nonce.length ≠ 16) ∧ (aeadOpen key dst nonce x ad = none ↔ nonce.length ≠ 16) := by
  by_cases hn : nonce.length = 16
  · rw [C24_ascon_seal _ _ _ _ _ hk hn]
    refine ⟨by simp [hn], ?_⟩
    by_cases hC : 16 ≤ x.length
    · obtain ⟨pt, ok, h1, _⟩ := Ascon.open_spec key dst nonce x ad hk hn hC
      rw [h1]; simp [hn]
    · unfold aeadOpen
      rw [if_neg (by omega), if_pos (by omega)]; simp [hn]
  · unfold aeadSeal aeadOpen
    rw [if_pos hn, if_pos hn]
    simp [hn]

/-- Test: known answers. -/
def aKey : Bytes := (List.range 16).map (BitVec.ofNat 8)
set_option maxRecDepth 100000 in
example : aeadSeal aKey [] aKey ((List.range 15).map (BitVec.ofNat 8)) ((List.range 18).map (BitVec.ofNat 8)) =
    some (hex "77AA511159627C4B855E67F95B3ABFA1FA8B51439743E4C8B41E4E76B40460") := by decide +kernel
set_option maxRecDepth 100000 in
example : Spec.Ascon.encrypt aKey aKey [] ((List.range 15).map (BitVec.ofNat 8)) =
    hex "BC820DBDF7A4631C5B29884AD6917516D420A5BC2E5357D010818F0B5F7859" := by decide +kernel
/-- The hypotheses of the theorems are met. -/
example : aKey.length = 16 ∧ aeadSeal aKey [1, 2] aKey [5] [] = some ([1, 2] ++ Spec.Ascon.encrypt aKey aKey [] [5]) :=
  ⟨by decide, C24_ascon_seal _ _ _ _ _ (by decide) (by decide)⟩

/-- C57 (`Open` releases no plaintext when it reports an error) is violated, on every forgery: for every
encryption whose tag has been replaced by another string `t`, `Open` reports the error and returns the
decrypted plaintext nevertheless. -/
theorem C57_ascon_release_violated (key dst nonce pt ad t : Bytes) (hk : key.length = 16) (hn : nonce.length = 16)
    (ht : t.length = 16) (hne : (Spec.Ascon.encrypt key nonce ad pt).take pt.length ++ t ≠ Spec.Ascon.encrypt key nonce ad pt) :
    aeadOpen key dst nonce ((Spec.Ascon.encrypt key nonce ad pt).take pt.length ++ t) ad = some (dst ++ pt, false) := by
  have hl := Ascon.encrypt_length key nonce ad pt
  have hCl : ((Spec.Ascon.encrypt key nonce ad pt).take pt.length ++ t).length = pt.length + 16 := by
    rw [List.length_append, List.length_take]; omega
  have hlt : ((Spec.Ascon.encrypt key nonce ad pt).take pt.length).length = pt.length := by rw [List.length_take]; omega
  obtain ⟨pt', ok, h1, h2, h3, h4⟩ := Ascon.open_spec key dst nonce _ ad hk hn (by rw [hCl]; omega)
  have := h4 pt (by rw [hCl]) (by rw [hCl, show pt.length + 16 - 16 = pt.length by omega]; exact List.take_left' hlt)
  subst this
  rw [h1]
  cases ok with
  | false => rfl
  | true => exact absurd (h3.mp rfl) hne

/-- The hypotheses are met: a forged tag, with a plaintext that is released. -/
theorem C57_ascon_release_example : ∃ pt, pt ≠ [] ∧ ∃ C, aeadOpen aKey [] aKey C [] = some (pt, false) := by
  obtain ⟨t, ht, hne⟩ : ∃ t : Bytes, t.length = 16 ∧
      (Spec.Ascon.encrypt aKey aKey [] [1]).take ([1] : Bytes).length ++ t ≠ Spec.Ascon.encrypt aKey aKey [] [1] := by
    by_cases h : (Spec.Ascon.encrypt aKey aKey [] [1]).take ([1] : Bytes).length ++ zeros 16 = Spec.Ascon.encrypt aKey aKey [] [1]
    · refine ⟨List.replicate 16 1, by decide, fun h' => ?_⟩
      have := List.append_inj_right (h'.trans h.symm) rfl
      exact absurd this (by decide)
    · exact ⟨zeros 16, by decide, h⟩
  exact ⟨[1], by decide, _, C57_ascon_release_violated aKey [] aKey [1] [] t (by decide) (by decide) ht hne⟩

/-- C57, the part that holds: a string shorter than a tag releases nothing. -/
theorem C57_ascon_short_partial (key dst nonce C ad : Bytes) (hn : nonce.length = 16) (hC : C.length < 16) :
    aeadOpen key dst nonce C ad = some (dst, false) := by
  unfold aeadOpen
  rw [if_neg (by omega), if_pos hC]
example : aeadOpen aKey [7] aKey [1, 2, 3] [] = some ([7], false) := C57_ascon_short_partial _ _ _ _ _ (by decide) (by decide)

/-- C58 (`Seal(pt[:0], nonce, pt, ad)` reuses the storage of the plaintext, as `cipher.AEAD` documents), where
it holds: the capacity of the plaintext has no room for the tag, so that nothing is reused. -/
theorem C58_ascon_inplace_partial (key nonce pt ad : Bytes) (cap : Nat) (hk : key.length = 16) (hn : nonce.length = 16)
    (hc : cap < pt.length + 16) : sealInPlace key nonce pt ad cap = some (Spec.Ascon.encrypt key nonce ad pt) := by
  unfold sealInPlace
  rw [if_neg (by omega), C24_ascon_seal _ _ _ _ _ hk hn]
  rfl
example : sealInPlace aKey aKey [1, 2, 3] [] 3 = some (Spec.Ascon.encrypt aKey aKey [] [1, 2, 3]) :=
  C58_ascon_inplace_partial _ _ _ _ _ (by decide) (by decide) (by decide)

/-- C58 is violated for every plaintext with room for the tag: the result is the encryption of zero bytes, and so
is right for the all-zero plaintext only. -/
theorem C58_ascon_inplace_violated (key nonce pt ad : Bytes) (cap : Nat) (hk : key.length = 16) (hn : nonce.length = 16)
    (hc : pt.length + 16 ≤ cap) :
    sealInPlace key nonce pt ad cap = some (Spec.Ascon.encrypt key nonce ad (zeros pt.length)) ∧
    (sealInPlace key nonce pt ad cap = some (Spec.Ascon.encrypt key nonce ad pt) ↔ pt = zeros pt.length) := by
  have h1 : sealInPlace key nonce pt ad cap = some (Spec.Ascon.encrypt key nonce ad (zeros pt.length)) := by
    unfold sealInPlace
    rw [if_pos hc, C24_ascon_seal _ _ _ _ _ hk hn]
    rfl
  refine ⟨h1, ?_⟩
  rw [h1]
  constructor
  · intro h
    injection h with h
    have e1 := (C24_ascon_open key [] nonce (Spec.Ascon.encrypt key nonce ad pt) ad pt hk hn).mpr ⟨pt, rfl, rfl⟩
    have e2 := (C24_ascon_open key [] nonce (Spec.Ascon.encrypt key nonce ad pt) ad (zeros pt.length) hk hn).mpr ⟨_, rfl, h.symm⟩
    rw [e1] at e2
    injection e2 with e2
    injection e2
  · intro h; rw [← h]
example : sealInPlace aKey aKey [1, 2, 3] [] 32 ≠ some (Spec.Ascon.encrypt aKey aKey [] [1, 2, 3]) :=
  fun h => absurd ((C58_ascon_inplace_violated aKey aKey [1, 2, 3] [] 32 (by decide) (by decide) (by decide)).2.mp h) (by decide)

/-- C58 is violated by `Open(ct[:0], nonce, ct, ad)`: it is `Open` of the string whose ciphertext part was
replaced by zero bytes, so a genuine ciphertext opens only if that part is zero already, or the tag collides. -/
theorem C58_ascon_open_inplace_violated (key nonce C ad out : Bytes) (hk : key.length = 16) (hn : nonce.length = 16) (hC : 16 ≤ C.length)
    (h : openInPlace key nonce C ad = some (out, true)) :
    zeros (C.length - 16) ++ C.drop (C.length - 16) = Spec.Ascon.encrypt key nonce ad out := by
  unfold openInPlace at h
  rw [if_neg (by omega)] at h
  obtain ⟨pt, h1, h2⟩ := (C24_ascon_open _ _ _ _ _ _ hk hn).mp h
  rw [h1]; exact h2
set_option maxRecDepth 100000 in
/-- A genuine ciphertext is rejected. -/
example : (aeadOpen aKey [] aKey (Spec.Ascon.encrypt aKey aKey [] [1, 2, 3]) []).map Prod.snd = some true ∧
    (openInPlace aKey aKey (Spec.Ascon.encrypt aKey aKey [] [1, 2, 3]) []).map Prod.snd = some false := by decide +kernel

end Verif.Props
