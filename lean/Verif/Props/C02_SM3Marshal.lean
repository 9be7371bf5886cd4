import Verif.Props.C01_SM3
/-
C02: saving and restoring an SM3 state.
-/
namespace Verif.Props

theorem sm3_state_length {l : List Bytes} {v : List U32} (h : v.length = 8) :
    (l.foldl SM3.block v).length = 8 := by
  induction l generalizing v with
  | nil => exact h
  | cons a l ih => exact ih rfl

theorem sm3_load_save (d : SM3.Digest) (m : Bytes) (r : SM3.Digest)
    (h : d.Repr 64 SM3.block SM3.iv m) :
    ∃ d', SM3.unmarshal r (SM3.marshal d) = some d' ∧ d'.Repr 64 SM3.block SM3.iv m := by
  have hb := h.buf
  have hnx := hb.nx_lt (by omega)
  have hs : d.s.length = 8 := by rw [hb.state]; exact sm3_state_length rfl
  have hw : ((d.s.map be32).flatten).length = 32 := by rw [map_be32_length, hs]
  have htk : (d.x.take d.nx).length = d.nx := by simp [hb.xlen]; omega
  have e4 : (SM3.marshal d).drop 4 = (d.s.map be32).flatten ++
      (d.x.take d.nx ++ zeros (64 - d.nx) ++ be64 d.len) := by
    simp only [SM3.marshal, List.append_assoc]; rfl
  have e36 : ((SM3.marshal d).drop 4).drop 32 = (d.x.take d.nx ++ zeros (64 - d.nx)) ++ be64 d.len := by
    rw [e4, ← hw, List.drop_left]
  have hl64 : (d.x.take d.nx ++ zeros (64 - d.nx)).length = 64 := by simp [hb.xlen]; omega
  have hlen : (SM3.marshal d).length = 108 := by
    simp [SM3.marshal, hw, hb.xlen, SM3.magic]; omega
  have hmag : (SM3.marshal d).take 4 = SM3.magic := by
    simp only [SM3.marshal, List.append_assoc]; rfl
  have hstate : (List.range 8).map (fun i => getBE32 ((SM3.marshal d).drop 4) (4 * i)) = d.s := by
    rw [e4]
    conv => rhs; rw [← map_getD_range d.s 0 8 hs]
    apply List.map_congr_left
    intro i hi
    exact getBE32_flatten _ _ _ (by rw [hs]; exact List.mem_range.mp hi)
  have hx : (((SM3.marshal d).drop 4).drop 32).take 64 = d.x.take d.nx ++ zeros (64 - d.nx) := by
    rw [e36]; exact List.take_left' hl64
  have hlf : getBE64 ((((SM3.marshal d).drop 4).drop 32).drop 64) = d.len := by
    rw [e36]
    rw [List.drop_left' hl64]
    have := getBE64_be64 d.len []
    rwa [List.append_nil] at this
  refine ⟨⟨d.s, d.x.take d.nx ++ zeros (64 - d.nx), d.len.toNat % 64, d.len⟩, ?_, ?_⟩
  · simp only [SM3.unmarshal]
    rw [if_neg (by rw [hlen, hmag]; simp), if_neg (by rw [hlen]; simp), hstate, hx, hlf]
  · have hnx' : d.len.toNat % 64 = d.nx := by
      rw [h.len_eq, hb.nx_eq]; simp
    refine ⟨⟨hb.state, hl64, ?_, ?_⟩, h.len_eq⟩
    · simp only; rw [hnx', hb.nx_eq]
    · simp only
      rw [hnx', ← hb.pend]; exact List.take_left' htk

/-- C02, round trip: whatever history produced the digest and whatever the receiver was, the
restored digest answers every further history like the original. -/
theorem C02_sm3_roundtrip : RoundTrips SM3.impl SM3.new SM3.marshal SM3.unmarshal :=
  sm3_sim.roundTrips sm3_init sm3_load_save

/-- C02, decision: `UnmarshalBinary` accepts exactly the 108-byte strings that begin with
`"sm3\x03"`. -/
theorem C02_sm3_accepts (r : SM3.Digest) (b : Bytes) :
    (SM3.unmarshal r b).isSome ↔ b.length = 108 ∧ b.take 4 = [0x73#8, 0x6d#8, 0x33#8, 0x03#8] := by
  have hm : SM3.magic = [0x73#8, 0x6d#8, 0x33#8, 0x03#8] := rfl
  unfold SM3.unmarshal
  rw [← hm]
  split
  · rename_i h
    simp only [Option.isSome_none, Bool.false_eq_true, false_iff]
    rintro ⟨h1, h2⟩
    rcases h with h | h
    · omega
    · exact h h2
  · rename_i h
    split
    · rename_i h2; simp [h2]
    · rename_i h2
      simp only [Option.isSome_some, true_iff]
      exact ⟨by simpa using h2, Classical.byContradiction fun hc => h (Or.inr hc)⟩

/-- Whatever is accepted is a usable digest: no later call panics, whatever the input was. -/
theorem C02_sm3_accepted_usable (r d : SM3.Digest) (b : Bytes)
    (_h : SM3.unmarshal r b = some d) (ops : List Op) :
    d.nx < 64 ∧ d.x.length = 64 ∧ Out.panicked ∉ SM3.impl.run d ops := by
  have hp : ∀ (ops : List Op) (d : SM3.Digest), Out.panicked ∉ SM3.impl.run d ops := by
    intro ops
    induction ops with
    | nil => intro d; simp [HashImpl.run]
    | cons o ops ih =>
      intro d
      cases o <;> simp [HashImpl.run, SM3.impl] <;> exact ih _
  refine ⟨?_, ?_, hp ops d⟩
  · unfold SM3.unmarshal at _h
    split at _h
    · cases _h
    · split at _h
      · cases _h
      · cases _h; exact Nat.mod_lt _ (by omega)
  · unfold SM3.unmarshal at _h
    split at _h
    · cases _h
    · split at _h
      · cases _h
      · rename_i _ h2
        cases _h; simp; omega

-- Non-vacuity: a reachable state with buffered bytes, restored into a used receiver.
set_option maxRecDepth 100000 in
example : ∃ d r d', SM3.impl.exec SM3.new [.write (ascii "hello"), .reset, .write (ascii "ab")] = some d ∧
    SM3.impl.exec SM3.new [.write (ascii "zzz")] = some r ∧
    SM3.unmarshal r (SM3.marshal d) = some d' ∧
    SM3.impl.run d' [.write (ascii "c"), .sum []] = [.wrote 1, .bytes
      (hex "66c7f0f462eeedd9d1f2d46bdc10e4e24167c4875cf2f7a2297da02b8f4ba8e0")] := by
  refine ⟨_, _, _, rfl, rfl, rfl, ?_⟩
  decide +kernel

end Verif.Props
