import Verif.Props.C03_MD2
/-
C04: saving and restoring an MD2 state.
-/
namespace Verif.Props

theorem md2_load_save (d : MD2.Digest) (m : Bytes) (r : MD2.Digest)
    (h : d.Repr 16 MD2.block MD2.s0 m) :
    ∃ d', MD2.unmarshal r (MD2.marshal d) = some d' ∧ d'.Repr 16 MD2.block MD2.s0 m := by
  have hb := h.buf
  have hnx := hb.nx_lt (by omega)
  have hw := MD2.WF_repr h
  have htk : (d.x.take d.nx).length = d.nx := by rw [List.length_take, hb.xlen]; omega
  have hxl : (goCopy (zeros 16) 0 (d.x.take d.nx)).length = 16 := by
    rw [goCopy_length _ _ _ (by omega), zeros_length]
  have e4 : (MD2.marshal d).drop 4 = d.s.s ++ (goCopy (zeros 16) 0 (d.x.take d.nx) ++ (be64 d.len ++ d.s.digest)) := by
    simp only [MD2.marshal, List.append_assoc]; exact List.drop_left' rfl
  have hlen : (MD2.marshal d).length = 92 := by
    simp only [MD2.marshal, List.length_append, hxl, hw.1, hw.2, be64_length, MD2.magic, List.length_cons, List.length_nil]
  have hmag : (MD2.marshal d).take 4 = MD2.magic := by
    simp only [MD2.marshal, List.append_assoc]; exact List.take_left' rfl
  refine ⟨⟨d.s, goCopy (zeros 16) 0 (d.x.take d.nx), d.len.toNat % 16, d.len⟩, ?_, ?_⟩
  · simp only [MD2.unmarshal]
    rw [if_neg (by rw [hlen, hmag]; simp), if_neg (by rw [hlen]; simp), e4,
      List.take_left' hw.1, List.drop_left' hw.1, List.take_left' hxl, List.drop_left' hxl,
      getBE64_be64, List.drop_left' (be64_length _), List.take_of_length_le (by rw [hw.2])]
  · have hnx' : d.len.toNat % 16 = d.nx := by
      rw [h.len_eq, hb.nx_eq, BitVec.toNat_ofNat]; omega
    refine ⟨⟨hb.state, hxl, ?_, ?_⟩, h.len_eq⟩
    · simp only; rw [hnx', hb.nx_eq]
    · simp only
      rw [hnx', ← hb.pend]
      have := goCopy_take (zeros 16) 0 (d.x.take d.nx) (by rw [htk, zeros_length]; omega)
      simpa [htk] using this

/-- C04, round trip: whatever history produced the digest and whatever the receiver was, the
restored digest answers every further history like the original. -/
theorem C04_md2_roundtrip : RoundTrips MD2.impl MD2.new MD2.marshal MD2.unmarshal :=
  md2_sim.roundTrips md2_init md2_load_save

/-- C04, decision: `UnmarshalBinary` accepts exactly the 92-byte strings that begin with
`"md2\x03"`. -/
theorem C04_md2_accepts (r : MD2.Digest) (b : Bytes) :
    (MD2.unmarshal r b).isSome ↔ b.length = 92 ∧ b.take 4 = [0x6d#8, 0x64#8, 0x32#8, 0x03#8] := by
  have hm : MD2.magic = [0x6d#8, 0x64#8, 0x32#8, 0x03#8] := rfl
  unfold MD2.unmarshal
  rw [← hm]
  split
  · rename_i h
    simp only [Option.isSome_none, Bool.false_eq_true, false_iff]
    rintro ⟨h1, h2⟩
    rcases h with h | h
    · omega
    · exact h h2
  · rename_i h
    split
    · rename_i h2; simp [h2]
    · rename_i h2
      simp only [Option.isSome_some, true_iff]
      exact ⟨by simpa using h2, Classical.byContradiction fun hc => h (Or.inr hc)⟩

/-- Whatever is accepted is a well-formed digest. -/
theorem C04_md2_accepted_wf (r d : MD2.Digest) (b : Bytes) (h : MD2.unmarshal r b = some d) :
    d.nx < 16 ∧ d.x.length = 16 ∧ d.s.s.length = 48 ∧ d.s.digest.length = 16 := by
  unfold MD2.unmarshal at h
  split at h
  · cases h
  · split at h
    · cases h
    · rename_i _ h2
      cases h
      refine ⟨Nat.mod_lt _ (by omega), ?_, ?_, ?_⟩ <;>
        simp only [List.length_take, List.length_drop] <;> omega

-- Non-vacuity: a reachable state with buffered bytes.
set_option maxRecDepth 100000 in
example : ∃ d d', MD2.impl.exec MD2.new [.write (ascii "ab")] = some d ∧
    MD2.unmarshal MD2.new (MD2.marshal d) = some d' ∧ d'.nx = 2 := by
  refine ⟨_, _, rfl, rfl, ?_⟩
  decide +kernel

end Verif.Props
