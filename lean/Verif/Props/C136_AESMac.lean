import Verif.Model.AESMac
import Verif.Spec.AESCipher
import Verif.Props.C18_CMAC
import Verif.Props.C19_PMAC
/-
C136: packages cmac/aes and pmac/aes, over crypto/aes doing what FIPS 197 says.
-/
namespace Verif.Props
open Verif.AESMac
open Verif.Spec

/-- A key of AES. -/
def aesKey (key : Bytes) : Prop := key.length = 16 ∨ key.length = 24 ∨ key.length = 32

theorem aes_new_isSome (key : Bytes) : (AES.new key).isSome ↔ aesKey key := by
  unfold AES.new aesKey
  split
  · rename_i h; simpa using h
  · rename_i h; simpa using h

theorem bxor_len (a b : Bytes) : (AES.bxor a b).length = min a.length b.length := by unfold AES.bxor; rw [List.length_zipWith]

theorem expand_shape (key : Bytes) (Nk : Nat) (hN : 4 ≤ Nk) (hk : key.length = 4 * Nk) : ∀ n, (AES.expand key Nk n).length = Nk + n ∧
    ∀ w ∈ AES.expand key Nk n, w.length = 4
  | 0 => by
    unfold AES.expand
    refine ⟨by simp, fun w hw => ?_⟩
    rw [List.mem_map] at hw
    obtain ⟨i, hi, rfl⟩ := hw
    rw [List.mem_range] at hi
    rw [List.length_take, List.length_drop]; omega
  | n + 1 => by
    obtain ⟨h1, h2⟩ := expand_shape key Nk hN hk n
    unfold AES.expand
    dsimp only
    refine ⟨by rw [List.length_append, h1]; rfl, fun w hw => ?_⟩
    rw [List.mem_append, List.mem_singleton] at hw
    rcases hw with hw | rfl
    · exact h2 w hw
    · have hg : ∀ i, i < Nk + n → ((AES.expand key Nk n).getD i []).length = 4 := by
        intro i hi
        rw [List.getD_eq_getElem?_getD, List.getElem?_eq_getElem (by omega)]
        exact h2 _ (List.getElem_mem _)
      rw [bxor_len, hg _ (by omega)]
      have ht := hg (Nk + n - 1) (by omega)
      rw [h1]
      generalize (AES.expand key Nk n).getD (Nk + n - 1) [] = t at *
      split
      · rw [bxor_len]; unfold AES.subBytes; simp [ht]
      · split
        · unfold AES.subBytes; simp [ht]
        · rw [ht]; rfl

theorem roundKey_len (w : List Bytes) (h : ∀ x ∈ w, x.length = 4) (r : Nat) (hr : 4 * r + 4 ≤ w.length) : (AES.roundKey w r).length = 16 := by
  unfold AES.roundKey
  have hl : ((w.drop (4 * r)).take 4).length = 4 := by rw [List.length_take, List.length_drop]; omega
  have hm : ∀ x ∈ (w.drop (4 * r)).take 4, x.length = 4 := fun x hx => h x (List.mem_of_mem_drop (List.mem_of_mem_take hx))
  generalize (w.drop (4 * r)).take 4 = l at *
  match l, hl with
  | [a, b, c, d], _ =>
    have h1 := hm a (by simp)
    have h2 := hm b (by simp)
    have h3 := hm c (by simp)
    have h4 := hm d (by simp)
    simp [h1, h2, h3, h4]

/-- AES maps blocks to blocks. -/
theorem aes_length (key : Bytes) (E : Bytes → Bytes) (h : AES.new key = some E) (b : Bytes) (hb : b.length = 16) : (E b).length = 16 := by
  unfold AES.new at h
  split at h
  · rename_i hk
    rw [← Option.some.inj h]
    obtain ⟨h1, h2⟩ := expand_shape key (key.length / 4) (by omega) (by omega) (4 * (key.length / 4 + 6 + 1) - key.length / 4)
    unfold AES.cipher
    dsimp only
    rw [bxor_len, roundKey_len _ h2 _ (by omega)]
    unfold AES.shiftRows
    simp
  · exact absurd h (by simp)

/-- AES-CMAC (RFC 4493), with `t` bytes of tag, for each of the three key lengths. -/
def aesCMAC (key : Bytes) (t : Nat) (m : Bytes) : Bytes := Spec.cmac (gfPoly 16) 16 ((AES.new key).getD id) t m
/-- AES-PMAC. -/
def aesPMAC (key : Bytes) (t : Nat) (m : Bytes) : Bytes := Spec.pmac (gfPoly 16) 16 ((AES.new key).getD id) t m

theorem C136_cmac_new (key : Bytes) (t : Int) : (cmacNewWithTagSize AES.new key t).isSome ↔ aesKey key ∧ 1 ≤ t ∧ t ≤ 16 := by
  unfold cmacNewWithTagSize
  cases h : AES.new key with
  | none =>
    have : ¬ aesKey key := fun hk => by have := (aes_new_isSome key).2 hk; rw [h] at this; cases this
    simp [this]
  | some E =>
    have : aesKey key := (aes_new_isSome key).1 (by rw [h]; rfl)
    dsimp only
    rw [C18_cmac_new]
    simp [this]

/-- Every history of calls on an object of cmac/aes. -/
theorem C136_cmac (key : Bytes) (hk : aesKey key) (t : Nat) (h1 : 1 ≤ t) (h2 : t ≤ 16) :
    ∃ d, cmacNewWithTagSize AES.new key t = some d ∧ Refines CMAC.impl d { H := aesCMAC key t, size := t, blockSize := 16 } := by
  obtain ⟨E, hE⟩ := Option.isSome_iff_exists.1 ((aes_new_isSome key).2 hk)
  obtain ⟨d, hd, hr⟩ := C18_cmac_partial 16 (Or.inr rfl) E (aes_length key E hE) t h1 h2
  refine ⟨d, by unfold cmacNewWithTagSize; rw [hE]; exact hd, ?_⟩
  have : aesCMAC key t = Spec.cmac (gfPoly 16) 16 E t := by funext m; unfold aesCMAC; rw [hE]; rfl
  rw [this]
  exact hr

/-- `New` makes full tags. -/
theorem C136_cmac_full (key : Bytes) : cmacNew AES.new key = cmacNewWithTagSize AES.new key (16 : Nat) := rfl

/-- `Verify` is true exactly for the tag of the message, a valid key and a valid tag size. -/
theorem C136_cmac_verify (key mac msg : Bytes) (t : Int) :
    cmacVerify AES.new mac msg key t = true ↔ aesKey key ∧ (1 ≤ t ∧ t ≤ 16) ∧ mac = aesCMAC key t.toNat msg := by
  unfold cmacVerify
  cases h : AES.new key with
  | none =>
    have : ¬ aesKey key := fun hk => by have := (aes_new_isSome key).2 hk; rw [h] at this; cases this
    simp [this]
  | some E =>
    have hk : aesKey key := (aes_new_isSome key).1 (by rw [h]; rfl)
    dsimp only
    rw [C18_cmac_verify 16 (Or.inr rfl) E (aes_length key E h)]
    unfold aesCMAC
    rw [h]
    exact ⟨fun x => ⟨hk, x⟩, fun x => x.2⟩

/-- `Sum` returns the tag, or an error exactly for another key length or tag size. -/
theorem C136_cmac_sum (key msg : Bytes) (t : Int) :
    (aesKey key ∧ 1 ≤ t ∧ t ≤ 16 → cmacSum AES.new msg key t = some (aesCMAC key t.toNat msg)) ∧
    (¬ (aesKey key ∧ 1 ≤ t ∧ t ≤ 16) → cmacSum AES.new msg key t = none) := by
  constructor
  · intro ⟨hk, ht⟩
    have hv := (C136_cmac_verify key (aesCMAC key t.toNat msg) msg t).2 ⟨hk, ht, rfl⟩
    unfold cmacVerify at hv
    unfold cmacSum
    cases h : AES.new key with
    | none => rw [h] at hv; cases hv
    | some E =>
      rw [h] at hv
      dsimp only at hv ⊢
      unfold CMAC.verify at hv
      cases hs : CMAC.sum msg 16 E t with
      | none => rw [hs] at hv; cases hv
      | some s => rw [hs] at hv; rw [eq_of_beq hv]
  · intro hn
    unfold cmacSum
    cases h : AES.new key with
    | none => rfl
    | some E =>
      have hk : aesKey key := (aes_new_isSome key).1 (by rw [h]; rfl)
      dsimp only
      unfold CMAC.sum
      cases hd : CMAC.newWithTagSize 16 E t with
      | none => rfl
      | some d =>
        have := (C18_cmac_new 16 E t).1 (by rw [hd]; rfl)
        exact absurd ⟨hk, this.2⟩ hn

theorem C136_pmac_new (key : Bytes) (t : Int) : (pmacNewWithTagSize AES.new key t).isSome ↔ aesKey key ∧ 1 ≤ t ∧ t ≤ 16 := by
  unfold pmacNewWithTagSize
  cases h : AES.new key with
  | none =>
    have : ¬ aesKey key := fun hk => by have := (aes_new_isSome key).2 hk; rw [h] at this; cases this
    simp [this]
  | some E =>
    have : aesKey key := (aes_new_isSome key).1 (by rw [h]; rfl)
    dsimp only
    rw [C19_pmac_new]
    simp [this]

/-- Histories of calls on an object of pmac/aes that call `Sum` only last or just before a `Reset`, and write no more than the
offsets allow (`pmacOk`); the rest is the violation of C19. -/
theorem C136_pmac_partial (key : Bytes) (hk : aesKey key) (t : Nat) (h1 : 1 ≤ t) (h2 : t ≤ 16) :
    ∃ d, pmacNewWithTagSize AES.new key t = some d ∧
      RefinesOn (Permits (pmacOk 16) pmacNext (false, 0)) PMAC.impl d { H := aesPMAC key t, size := t, blockSize := 16 } := by
  obtain ⟨E, hE⟩ := Option.isSome_iff_exists.1 ((aes_new_isSome key).2 hk)
  obtain ⟨d, hd, hr⟩ := C19_pmac_partial E (aes_length key E hE) t h1 h2
  refine ⟨d, by unfold pmacNewWithTagSize; rw [hE]; exact hd, ?_⟩
  have : aesPMAC key t = Spec.pmac (gfPoly 16) 16 E t := by funext m; unfold aesPMAC; rw [hE]; rfl
  rw [this]
  exact hr

theorem C136_pmac_full (key : Bytes) : pmacNew AES.new key = pmacNewWithTagSize AES.new key (16 : Nat) := rfl

/-- `Verify` does not panic and is true exactly for the tag of the message, a valid key and a valid tag size (messages up to 32 GiB). -/
theorem C136_pmac_verify (key mac msg : Bytes) (t : Int) (hm : msg.length ≤ 2 ^ 35) :
    ∃ r, pmacVerify AES.new mac msg key t = some r ∧ (r = true ↔ aesKey key ∧ (1 ≤ t ∧ t ≤ 16) ∧ mac = aesPMAC key t.toNat msg) := by
  unfold pmacVerify
  cases h : AES.new key with
  | none =>
    have : ¬ aesKey key := fun hk => by have := (aes_new_isSome key).2 hk; rw [h] at this; cases this
    exact ⟨false, rfl, by simp [this]⟩
  | some E =>
    have hk : aesKey key := (aes_new_isSome key).1 (by rw [h]; rfl)
    obtain ⟨r, h1, h2⟩ := C19_pmac_verify E (aes_length key E h) t mac msg hm
    refine ⟨r, h1, ?_⟩
    rw [h2]
    unfold aesPMAC
    rw [h]
    exact ⟨fun x => ⟨hk, x⟩, fun x => x.2⟩

/-- `Sum` returns the tag, or an error exactly for another key length or tag size. -/
theorem C136_pmac_sum (key msg : Bytes) (t : Int) (hm : msg.length ≤ 2 ^ 35) :
    (aesKey key ∧ 1 ≤ t ∧ t ≤ 16 → AESMac.pmacSum AES.new msg key t = some (some (aesPMAC key t.toNat msg))) ∧
    (¬ (aesKey key ∧ 1 ≤ t ∧ t ≤ 16) → AESMac.pmacSum AES.new msg key t = some none) := by
  constructor
  · intro ⟨hk, ht⟩
    obtain ⟨r, h1, h2⟩ := C136_pmac_verify key (aesPMAC key t.toNat msg) msg t hm
    have hv := h2.2 ⟨hk, ht, rfl⟩
    subst hv
    unfold pmacVerify at h1
    unfold AESMac.pmacSum
    cases h : AES.new key with
    | none => rw [h] at h1; cases h1
    | some E =>
      rw [h] at h1
      dsimp only at h1 ⊢
      unfold PMAC.verify at h1
      cases hs : PMAC.sum msg 16 E t with
      | none => rw [hs] at h1; cases h1
      | some s =>
        rw [hs] at h1
        cases s with
        | none => cases h1
        | some s =>
          have h3 : (aesPMAC key t.toNat msg == s) = true := Option.some.inj h1
          rw [eq_of_beq h3]
  · intro hn
    unfold AESMac.pmacSum
    cases h : AES.new key with
    | none => rfl
    | some E =>
      have hk : aesKey key := (aes_new_isSome key).1 (by rw [h]; rfl)
      dsimp only
      unfold PMAC.sum
      cases hd : PMAC.newWithTagSize 16 E t with
      | none => rfl
      | some d =>
        have := (C19_pmac_new 16 E t).1 (by rw [hd]; rfl)
        exact absurd ⟨hk, this.2⟩ hn

/- The specification gives the example of FIPS 197, appendix B, and an AES-256 key is one. -/
set_option maxRecDepth 20000 in
example : ((AES.new [0x2b, 0x7e, 0x15, 0x16, 0x28, 0xae, 0xd2, 0xa6, 0xab, 0xf7, 0x15, 0x88, 0x09, 0xcf, 0x4f, 0x3c]).getD id)
    [0x32, 0x43, 0xf6, 0xa8, 0x88, 0x5a, 0x30, 0x8d, 0x31, 0x31, 0x98, 0xa2, 0xe0, 0x37, 0x07, 0x34] =
    [0x39, 0x25, 0x84, 0x1d, 0x02, 0xdc, 0x09, 0xfb, 0xdc, 0x11, 0x85, 0x97, 0x19, 0x6a, 0x0b, 0x32] := by decide +kernel
/- FIPS 197, appendix C.3 (AES-256). -/
set_option maxRecDepth 20000 in
example : ((AES.new ((List.range 32).map (BitVec.ofNat 8))).getD id) ((List.range 16).map fun i => BitVec.ofNat 8 (17 * i)) =
    [0x8e, 0xa2, 0xb7, 0xca, 0x51, 0x67, 0x45, 0xbf, 0xea, 0xfc, 0x49, 0x90, 0x4b, 0x49, 0x60, 0x89] := by decide +kernel
/- FIPS 197, appendix C.2 (AES-192). -/
set_option maxRecDepth 20000 in
example : ((AES.new ((List.range 24).map (BitVec.ofNat 8))).getD id) ((List.range 16).map fun i => BitVec.ofNat 8 (17 * i)) =
    [0xdd, 0xa9, 0x7c, 0xa4, 0x86, 0x4c, 0xdf, 0xe0, 0x6e, 0xaf, 0x70, 0xa0, 0xec, 0x0d, 0x71, 0x91] := by decide +kernel
/- RFC 4493, example 1: the empty message. -/
set_option maxRecDepth 20000 in
example : aesCMAC [0x2b, 0x7e, 0x15, 0x16, 0x28, 0xae, 0xd2, 0xa6, 0xab, 0xf7, 0x15, 0x88, 0x09, 0xcf, 0x4f, 0x3c] 16 [] =
    [0xbb, 0x1d, 0x69, 0x29, 0xe9, 0x59, 0x37, 0x28, 0x7f, 0xa3, 0x7d, 0x12, 0x9b, 0x75, 0x67, 0x46] := by decide +kernel
example : aesKey (zeros 32) ∧ aesKey (zeros 24) ∧ aesKey (zeros 16) ∧ ¬ aesKey (zeros 17) := by unfold aesKey; decide

end Verif.Props
