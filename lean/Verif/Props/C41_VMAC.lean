import Verif.Lemmas.VMAC
/-
C41: package vmac.
-/
namespace Verif.Props
open Verif.VMAC

/-- What the cipher must satisfy: blocks to blocks, and at least one of the 256 L3 key blocks acceptable (a random cipher fails with probability
about 2^-13000; without it the search of the standard and of the code has no end). -/
structure VmacCipher (E : Bytes → Bytes) : Prop where
  block : ∀ b, (E b).length = 16
  l3 : ∃ i, i < 256 ∧ Spec.VMAC.l3Ok (Spec.VMAC.l3Pair E i) = true

theorem vmac_l3Key {E : Bytes → Bytes} (h : VmacCipher E) : ∀ i, i < 2 → (Spec.VMAC.l3Key E i).isSome := by
  obtain ⟨j, hj, ho⟩ := h.l3
  have hper : Spec.VMAC.l3Pair E (256 + j) = Spec.VMAC.l3Pair E j := by
    have : BitVec.ofNat 8 (256 + j) = BitVec.ofNat 8 j := by apply BitVec.eq_of_toNat_eq; rw [BitVec.toNat_ofNat, BitVec.toNat_ofNat]; omega
    unfold Spec.VMAC.l3Pair Spec.VMAC.kdf; rw [this]
  have hlen : 2 ≤ (((List.range 512).map (Spec.VMAC.l3Pair E)).filter Spec.VMAC.l3Ok).length := by
    rw [show (512 : Nat) = 256 + 256 from rfl, List.range_add, List.map_append, List.filter_append, List.length_append]
    have p1 : 0 < (((List.range 256).map (Spec.VMAC.l3Pair E)).filter Spec.VMAC.l3Ok).length :=
      List.length_pos_of_mem (List.mem_filter.2 ⟨List.mem_map.2 ⟨j, List.mem_range.2 hj, rfl⟩, ho⟩)
    have p2 : 0 < ((((List.range 256).map (256 + ·)).map (Spec.VMAC.l3Pair E)).filter Spec.VMAC.l3Ok).length :=
      List.length_pos_of_mem (List.mem_filter.2 ⟨List.mem_map.2 ⟨256 + j, List.mem_map.2 ⟨j, List.mem_range.2 hj, rfl⟩, hper⟩, ho⟩)
    omega
  intro i hi
  unfold Spec.VMAC.l3Key
  rw [List.getElem?_eq_getElem (by omega)]; rfl

/-- Objects with a non-empty nonce and a tag size of 8 or 16 bytes: the full contract, for VMAC of the cipher, nonce and message; New accepts
exactly nonces below 16 bytes.  Missing: the other configurations New accepts, all of which panic (`C41_vmac_accepted_violated`). -/
theorem C41_vmac_partial (E : Bytes → Bytes) (hE : VmacCipher E) (nonce : Bytes) (hn : nonce ≠ []) (hl : nonce.length < 16) (size : Nat) (hs : size = 8 ∨ size = 16) :
    ∃ d, new E nonce size = some d ∧ Refines impl d { H := Spec.VMAC.vmac E nonce size, size := size, blockSize := 16 } := by
  refine ⟨⟨E, nonce, size, []⟩, ?_, ?_⟩
  · unfold new
    rw [if_neg (by omega), if_neg (by rcases hs with rfl | rfl <;> decide)]
  · refine Sim.refines (R := fun (d : Digest) m => d = ⟨E, nonce, size, m⟩) ⟨?_, ?_, ?_, ?_, ?_⟩ rfl
    · rintro d m p rfl; exact ⟨⟨E, nonce, size, m ++ p⟩, rfl, rfl⟩
    · rintro d m b rfl
      refine ⟨⟨E, nonce, size, m⟩, ?_, rfl⟩
      show (Digest.checkSum _).map _ = _
      rw [checkSum_eq hE.block ⟨E, nonce, size, m⟩ rfl size rfl hs hn hl (vmac_l3Key hE)]; rfl
    · rintro d m rfl; rfl
    · rintro d m rfl; rfl
    · rintro d m rfl; rfl

/-- The rest of the claim is false: each other configuration that New accepts (an empty nonce; a size that is a multiple of 8 but not 8 or 16:
0, negative, 24 and more) panics in the first Sum, whatever the message. -/
theorem C41_vmac_accepted_violated (E : Bytes → Bytes) (nonce : Bytes) (size : Int) (d : Digest) (h : new E nonce size = some d)
    (hbad : nonce = [] ∨ (size ≠ 8 ∧ size ≠ 16)) (m : Bytes) : impl.run d [.write m, .sum []] = [.wrote m.length, .panicked] := by
  unfold new at h
  split at h
  · cases h
  · split at h
    · cases h
    · rename_i hl h8
      cases h
      have hp : ∀ m, Digest.checkSum ⟨E, nonce, size, m⟩ = none := by
        intro m
        unfold Digest.checkSum
        by_cases hv : Digest.vhash ⟨E, nonce, size, m⟩ = none
        · rw [hv]; rfl
        · obtain ⟨y, hy⟩ := Option.ne_none_iff_exists'.1 hv
          rw [hy, Option.bind_some]
          have hneg : 0 ≤ size := by
            by_cases hneg : size < 0
            · exfalso; apply hv; unfold Digest.vhash; rw [if_pos hneg]
            · omega
          have : Digest.pdf ⟨E, nonce, size, m⟩ = none := by
            unfold Digest.pdf
            by_cases hc : nonce = [] ∨ size = 0
            · rw [if_pos hc]
            · rw [if_neg hc]
              dsimp only
              have h24 : 24 ≤ size := by
                have hd : size % 8 = 0 := by
                  have : size.tmod 8 = 0 := by simpa using h8
                  rw [Int.tmod_eq_emod_of_nonneg hneg] at this; exact this
                have := not_or.1 hc
                rcases hbad with hb | ⟨hb1, hb2⟩
                · exact absurd hb this.1
                · have := this.2; omega
              rw [if_neg (by
                rintro ⟨h1, h2, h3⟩
                omega)]
          rw [this]; rfl
      simp only [HashImpl.run, impl, List.nil_append, hp]
      rfl

/-! Non-vacuity: the identity as the cipher, a nonce of one byte. -/
def idCipher (b : Bytes) : Bytes := (b ++ zeros 16).take 16
example : VmacCipher idCipher :=
  ⟨fun b => by unfold idCipher; rw [List.length_take, List.length_append, zeros_length]; omega, 0, by decide, by decide⟩
example : (new idCipher [] 8).isSome ∧ (new idCipher [1] 24).isSome ∧ (new idCipher [1] (-8)).isSome ∧ (new idCipher [1] 0).isSome := by decide
end Verif.Props
