import Verif.Props.C09_BLAKE256
import Verif.Props.C10_BLAKE512
import Verif.Lemmas.BLAKEMarshal
/-
C114–C119: saving and restoring BLAKE objects.
-/
namespace Verif.Props

/-! ### Package blake256 -/

/-- An object fresh from one of the constructors of package blake256 with initial value `iv`. -/
def b256Fresh (iv : List U32) (d : BLAKE256.Digest) : Prop :=
  d = BLAKE256.new iv ∨ ∃ salt, BLAKE256.newWithSalt iv salt = some d

theorem b256Fresh_repr (iv : List U32) (d : BLAKE256.Digest) (h : b256Fresh iv d) :
    ∃ s, BLAKE256.SRepr iv s d [] := by
  rcases h with rfl | ⟨salt, h⟩
  · exact ⟨[0, 0, 0, 0], rfl, .init ⟨rfl, zeros_length 64, rfl, rfl⟩⟩
  · exact ⟨_, rfl, newWithSalt_repr iv salt d h⟩

/-- C114, `blake256.New` and `NewWithSalt`: whatever history produced the saved object (including `Reset`,
with or without a salt) and whatever object receives it, the restored object answers every further
history like the saved one. -/
theorem C114_blake256_roundtrip (d0 : BLAKE256.Digest) (h : b256Fresh BLAKE256.iv256 d0) :
    RoundTrips (BLAKE256.impl 256 BLAKE256.iv256) d0 BLAKE256.marshal BLAKE256.unmarshal := by
  obtain ⟨s, hs⟩ := b256Fresh_repr _ _ h
  exact BLAKE256.roundTrips 256 _ rfl Spec.BLAKE.blake256 (fun s d m h => blake256_sum s d m h) d0 s hs

/-- C114, `blake256.New224` and `New224WithSalt`. -/
theorem C114_blake224_roundtrip (d0 : BLAKE256.Digest) (h : b256Fresh BLAKE256.iv224 d0) :
    RoundTrips (BLAKE256.impl 224 BLAKE256.iv224) d0 BLAKE256.marshal BLAKE256.unmarshal := by
  obtain ⟨s, hs⟩ := b256Fresh_repr _ _ h
  exact BLAKE256.roundTrips 224 _ rfl Spec.BLAKE.blake224 (fun s d m h => blake224_sum s d m h) d0 s hs

/-- C115, decision: `UnmarshalBinary` accepts exactly the 138-byte strings that begin with
`"blake256\x03"`. -/
theorem C115_blake256_accepts (r : BLAKE256.Digest) (b : Bytes) :
    (BLAKE256.unmarshal r b).isSome ↔ b.length = 138 ∧ b.take 9 = ascii "blake256" ++ [3#8] := by
  have hm : BLAKE256.magic = ascii "blake256" ++ [3#8] := by decide
  have hl : BLAKE256.magic.length = 9 := rfl
  have hz : BLAKE256.marshaledSize = 138 := rfl
  unfold BLAKE256.unmarshal
  rw [← hm, hl, hz]
  split
  · rename_i h
    simp only [Option.isSome_none, Bool.false_eq_true, false_iff]
    rintro ⟨h1, h2⟩
    rcases h with h | h
    · omega
    · exact h h2
  · rename_i h
    split
    · rename_i h2; simp [h2]
    · rename_i h2
      simp only [Option.isSome_some, true_iff]
      exact ⟨by simpa using h2, Classical.byContradiction fun hc => h (Or.inr hc)⟩

/-- The restored object depends on the saved bytes alone, not on the receiver. -/
theorem C115_blake256_receiver (r r' : BLAKE256.Digest) (b : Bytes) :
    BLAKE256.unmarshal r b = BLAKE256.unmarshal r' b := rfl

/-- Whatever bytes are accepted, the object satisfies the bounds that all the methods rely on: a full
buffer array, a write position inside it, four salt words and eight chaining words. -/
theorem C115_blake256_accepted_wellformed (r d : BLAKE256.Digest) (b : Bytes)
    (h : BLAKE256.unmarshal r b = some d) :
    d.x.length = 64 ∧ d.nx < 64 ∧ d.nx = d.len.toNat % 64 ∧ d.s.s.length = 4 ∧ d.s.h.length = 8 := by
  unfold BLAKE256.unmarshal at h
  split at h
  · cases h
  · split at h
    · cases h
    · rename_i h2
      have hz : BLAKE256.marshaledSize = 138 := rfl
      have hl : BLAKE256.magic.length = 9 := rfl
      rw [hz] at h2
      cases h
      refine ⟨?_, Nat.mod_lt _ (by omega), rfl, rfl, rfl⟩
      simp [hl]; omega

/-- C115: saving the restored object again gives the same bytes. -/
theorem C115_blake256_resave (hs : Nat) (iv : List U32) (hiv : iv.length = 8) (d0 d r d' : BLAKE256.Digest) (ops : List Op)
    (h0 : b256Fresh iv d0) (he : (BLAKE256.impl hs iv).exec d0 ops = some d)
    (hu : BLAKE256.unmarshal r (BLAKE256.marshal d) = some d') : BLAKE256.marshal d' = BLAKE256.marshal d := by
  obtain ⟨s, h⟩ := b256Fresh_repr _ _ h0
  obtain ⟨s, m, hs4, h⟩ := BLAKE256.exec_repr hs iv ops d0 d s [] h he
  have hb := h.buf
  have hnx := hb.nx_lt (by omega)
  have hk := BLAKE256.fold_keeps (fullBlocks 64 m) (BLAKE256.State.mk s iv 0#64 false) hiv
  rw [BLAKE256.unmarshal_marshal d r (by rw [hb.state, hk.1]; exact hs4) (by rw [hb.state]; exact hk.2.1)
    hb.xlen hnx] at hu
  cases hu
  have hnx' : d.len.toNat % 64 = d.nx := by rw [h.len_eq, hb.nx_eq]; simp
  have htk : (d.x.take d.nx).length = d.nx := by simp [hb.xlen]; omega
  simp only [BLAKE256.marshal]
  rw [hnx', List.take_left' htk]

/-- C116, what happens: every state saved by an object of `blake256.New224` is accepted by an object of
`blake256.New`. -/
theorem C116_blake256_accepts_other (d0 d r : BLAKE256.Digest) (ops : List Op) (h0 : b256Fresh BLAKE256.iv224 d0)
    (he : (BLAKE256.impl 224 BLAKE256.iv224).exec d0 ops = some d) :
    (BLAKE256.unmarshal r (BLAKE256.marshal d)).isSome := by
  obtain ⟨d', e, _⟩ := C114_blake224_roundtrip d0 h0 ops d r he
  rw [e]; rfl

set_option maxRecDepth 100000 in
/-- C116 fails: an object of `blake256.New` accepts the state that an object of `New224` saved after
`Write("ab")`, and its `Sum` is neither the digest of `"ab"` under its own function nor that of the
function that saved the state, nor does it extend the latter. -/
theorem C116_blake256_kind_violated : ∃ d d' out,
    (BLAKE256.impl 224 BLAKE256.iv224).exec (BLAKE256.new BLAKE256.iv224) [.write (ascii "ab")] = some d ∧
    BLAKE256.unmarshal (BLAKE256.new BLAKE256.iv256) (BLAKE256.marshal d) = some d' ∧
    (BLAKE256.impl 256 BLAKE256.iv256).run d' [.sum []] = [.bytes out] ∧
    out ≠ Spec.BLAKE.blake256 [0, 0, 0, 0] (ascii "ab") ∧
    out.take 28 ≠ Spec.BLAKE.blake224 [0, 0, 0, 0] (ascii "ab") := by
  refine ⟨_, _, _, rfl, rfl, rfl, ?_, ?_⟩
  · decide +kernel
  · decide +kernel

-- Non-vacuity: a salted object with buffered bytes, restored into a used receiver; the digest is that
-- of the whole message.
set_option maxRecDepth 100000 in
example : ∃ d0 d r d', BLAKE256.newWithSalt BLAKE256.iv256 (zeros 15 ++ [7#8]) = some d0 ∧ b256Fresh BLAKE256.iv256 d0 ∧
    (BLAKE256.impl 256 BLAKE256.iv256).exec d0 [.write (ascii "a"), .sum [], .write (zeros 64)] = some d ∧
    (BLAKE256.impl 256 BLAKE256.iv256).exec d0 [.write (ascii "zzz")] = some r ∧
    BLAKE256.unmarshal r (BLAKE256.marshal d) = some d' ∧
    (BLAKE256.impl 256 BLAKE256.iv256).run d' [.write (ascii "c"), .sum []] = [.wrote 1, .bytes
      (Spec.BLAKE.blake256 (Spec.BLAKE.salt32 (zeros 15 ++ [7#8])) (ascii "a" ++ zeros 64 ++ ascii "c"))] := by
  refine ⟨_, _, _, _, rfl, Or.inr ⟨zeros 15 ++ [7#8], rfl⟩, rfl, rfl, rfl, ?_⟩
  decide +kernel

/-! ### Package blake512 -/

/-- An object fresh from one of the constructors of package blake512 with initial value `iv`. -/
def b512Fresh (iv : List U64) (d : BLAKE512.Digest) : Prop :=
  d = BLAKE512.new iv ∨ ∃ salt, BLAKE512.newWithSalt iv salt = some d

theorem b512Fresh_repr (iv : List U64) (d : BLAKE512.Digest) (h : b512Fresh iv d) :
    ∃ s, BLAKE512.SRepr iv s d [] := by
  rcases h with rfl | ⟨salt, h⟩
  · exact ⟨[0, 0, 0, 0], rfl, .init ⟨rfl, zeros_length 128, rfl, rfl⟩⟩
  · exact ⟨_, rfl, newWithSalt64_repr iv salt d h⟩

/-- C117, `blake512.New` and `NewWithSalt`: whatever history produced the saved object (including `Reset`,
with or without a salt) and whatever object receives it, the restored object answers every further
history like the saved one. -/
theorem C117_blake512_roundtrip (d0 : BLAKE512.Digest) (h : b512Fresh BLAKE512.iv512 d0) :
    RoundTrips (BLAKE512.impl 64 BLAKE512.iv512) d0 BLAKE512.marshal BLAKE512.unmarshal := by
  obtain ⟨s, hs⟩ := b512Fresh_repr _ _ h
  exact BLAKE512.roundTrips 64 _ rfl Spec.BLAKE.blake512 (fun s d m h => blake512_sum s d m h) d0 s hs

/-- C117, `blake512.New384` and `New384WithSalt`. -/
theorem C117_blake384_roundtrip (d0 : BLAKE512.Digest) (h : b512Fresh BLAKE512.iv384 d0) :
    RoundTrips (BLAKE512.impl 48 BLAKE512.iv384) d0 BLAKE512.marshal BLAKE512.unmarshal := by
  obtain ⟨s, hs⟩ := b512Fresh_repr _ _ h
  exact BLAKE512.roundTrips 48 _ rfl Spec.BLAKE.blake384 (fun s d m h => blake384_sum s d m h) d0 s hs

/-- C118, decision: `UnmarshalBinary` accepts exactly the 257-byte strings that begin with
`"blake512\x03"`. -/
theorem C118_blake512_accepts (r : BLAKE512.Digest) (b : Bytes) :
    (BLAKE512.unmarshal r b).isSome ↔ b.length = 257 ∧ b.take 9 = ascii "blake512" ++ [3#8] := by
  have hm : BLAKE512.magic = ascii "blake512" ++ [3#8] := by decide
  have hl : BLAKE512.magic.length = 9 := rfl
  have hz : BLAKE512.marshaledSize = 257 := rfl
  unfold BLAKE512.unmarshal
  rw [← hm, hl, hz]
  split
  · rename_i h
    simp only [Option.isSome_none, Bool.false_eq_true, false_iff]
    rintro ⟨h1, h2⟩
    rcases h with h | h
    · omega
    · exact h h2
  · rename_i h
    split
    · rename_i h2; simp [h2]
    · rename_i h2
      simp only [Option.isSome_some, true_iff]
      exact ⟨by simpa using h2, Classical.byContradiction fun hc => h (Or.inr hc)⟩

/-- The restored object depends on the saved bytes alone, not on the receiver. -/
theorem C118_blake512_receiver (r r' : BLAKE512.Digest) (b : Bytes) :
    BLAKE512.unmarshal r b = BLAKE512.unmarshal r' b := rfl

/-- Whatever bytes are accepted, the object satisfies the bounds that all the methods rely on: a full
buffer array, a write position inside it, four salt words and eight chaining words. -/
theorem C118_blake512_accepted_wellformed (r d : BLAKE512.Digest) (b : Bytes)
    (h : BLAKE512.unmarshal r b = some d) :
    d.x.length = 128 ∧ d.nx < 128 ∧ d.nx = d.len.toNat % 128 ∧ d.s.s.length = 4 ∧ d.s.h.length = 8 := by
  unfold BLAKE512.unmarshal at h
  split at h
  · cases h
  · split at h
    · cases h
    · rename_i h2
      have hz : BLAKE512.marshaledSize = 257 := rfl
      have hl : BLAKE512.magic.length = 9 := rfl
      rw [hz] at h2
      cases h
      refine ⟨?_, Nat.mod_lt _ (by omega), rfl, rfl, rfl⟩
      simp [hl]; omega

/-- C118: saving the restored object again gives the same bytes. -/
theorem C118_blake512_resave (hs : Nat) (iv : List U64) (hiv : iv.length = 8) (d0 d r d' : BLAKE512.Digest) (ops : List Op)
    (h0 : b512Fresh iv d0) (he : (BLAKE512.impl hs iv).exec d0 ops = some d)
    (hu : BLAKE512.unmarshal r (BLAKE512.marshal d) = some d') : BLAKE512.marshal d' = BLAKE512.marshal d := by
  obtain ⟨s, h⟩ := b512Fresh_repr _ _ h0
  obtain ⟨s, m, hs4, h⟩ := BLAKE512.exec_repr hs iv ops d0 d s [] h he
  have hb := h.buf
  have hnx := hb.nx_lt (by omega)
  have hk := BLAKE512.fold_keeps (fullBlocks 128 m) (BLAKE512.State.mk s iv 0#64 0#64) hiv
  rw [BLAKE512.unmarshal_marshal d r (by rw [hb.state, hk.1]; exact hs4) (by rw [hb.state]; exact hk.2)
    hb.xlen hnx] at hu
  cases hu
  have hnx' : d.len.toNat % 128 = d.nx := by rw [h.len_eq, hb.nx_eq]; simp
  have htk : (d.x.take d.nx).length = d.nx := by simp [hb.xlen]; omega
  simp only [BLAKE512.marshal]
  rw [hnx', List.take_left' htk]

/-- C119, what happens: every state saved by an object of `blake512.New384` is accepted by an object of
`blake512.New`. -/
theorem C119_blake512_accepts_other (d0 d r : BLAKE512.Digest) (ops : List Op) (h0 : b512Fresh BLAKE512.iv384 d0)
    (he : (BLAKE512.impl 48 BLAKE512.iv384).exec d0 ops = some d) :
    (BLAKE512.unmarshal r (BLAKE512.marshal d)).isSome := by
  obtain ⟨d', e, _⟩ := C117_blake384_roundtrip d0 h0 ops d r he
  rw [e]; rfl

set_option maxRecDepth 100000 in
/-- C119 fails: an object of `blake512.New` accepts the state that an object of `New384` saved after
`Write("ab")`, and its `Sum` is neither the digest of `"ab"` under its own function nor that of the
function that saved the state, nor does it extend the latter. -/
theorem C119_blake512_kind_violated : ∃ d d' out,
    (BLAKE512.impl 48 BLAKE512.iv384).exec (BLAKE512.new BLAKE512.iv384) [.write (ascii "ab")] = some d ∧
    BLAKE512.unmarshal (BLAKE512.new BLAKE512.iv512) (BLAKE512.marshal d) = some d' ∧
    (BLAKE512.impl 64 BLAKE512.iv512).run d' [.sum []] = [.bytes out] ∧
    out ≠ Spec.BLAKE.blake512 [0, 0, 0, 0] (ascii "ab") ∧
    out.take 48 ≠ Spec.BLAKE.blake384 [0, 0, 0, 0] (ascii "ab") := by
  refine ⟨_, _, _, rfl, rfl, rfl, ?_, ?_⟩
  · decide +kernel
  · decide +kernel

-- Non-vacuity: a salted object with buffered bytes, restored into a used receiver; the digest is that
-- of the whole message.
set_option maxRecDepth 100000 in
example : ∃ d0 d r d', BLAKE512.newWithSalt BLAKE512.iv512 (zeros 31 ++ [7#8]) = some d0 ∧ b512Fresh BLAKE512.iv512 d0 ∧
    (BLAKE512.impl 64 BLAKE512.iv512).exec d0 [.write (ascii "a"), .sum [], .write (zeros 128)] = some d ∧
    (BLAKE512.impl 64 BLAKE512.iv512).exec d0 [.write (ascii "zzz")] = some r ∧
    BLAKE512.unmarshal r (BLAKE512.marshal d) = some d' ∧
    (BLAKE512.impl 64 BLAKE512.iv512).run d' [.write (ascii "c"), .sum []] = [.wrote 1, .bytes
      (Spec.BLAKE.blake512 (Spec.BLAKE.salt64 (zeros 31 ++ [7#8])) (ascii "a" ++ zeros 128 ++ ascii "c"))] := by
  refine ⟨_, _, _, _, rfl, Or.inr ⟨zeros 31 ++ [7#8], rfl⟩, rfl, rfl, rfl, ?_⟩
  decide +kernel

end Verif.Props
