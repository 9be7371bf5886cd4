import Verif.Model.BLAKEMarshal
import Verif.BufDigest
import Verif.HashAPI
import Verif.Bits
/-
Saving and restoring BLAKE objects.
-/
namespace Verif

namespace BLAKE256

theorem forLoop_set_length {α} (n : Nat) (f : List α → Nat → List α) (hf : ∀ h i, (f h i).length = h.length) (h : List α) :
    (forLoop 0 n f h).length = h.length :=
  forLoop_inv (a := 0) (b := n) (fun _ (l : List α) => l.length = h.length) (by omega) rfl
    (fun j l _ _ ih => by rw [hf, ih])

/-- What the block function keeps. -/
theorem fold_keeps (l : List Bytes) : ∀ st : State, st.h.length = 8 →
    (l.foldl compress st).s = st.s ∧ (l.foldl compress st).h.length = 8 ∧ (l.foldl compress st).nullt = st.nullt := by
  induction l with
  | nil => intro st h; exact ⟨rfl, h, rfl⟩
  | cons p l ih =>
    intro st h
    have k1 : (compress st p).s = st.s := by unfold compress; rfl
    have k2 : (compress st p).nullt = st.nullt := by unfold compress; rfl
    have hl : (compress st p).h.length = 8 := by
      unfold compress
      dsimp only
      rw [forLoop_set_length 8 _ (fun h i => by rw [List.length_set]),
        forLoop_set_length 16 _ (fun h i => by rw [List.length_set]), h]
    have := ih (compress st p) hl
    rw [List.foldl_cons]
    rw [k1, k2] at this
    exact this

/-- Reading back what was written. -/
theorem unmarshal_marshal (d r : Digest) (hs : d.s.s.length = 4) (hh : d.s.h.length = 8)
    (hx : d.x.length = 64) (hn : d.nx < 64) :
    unmarshal r (marshal d) = some { d with x := d.x.take d.nx ++ zeros (64 - d.nx), nx := d.len.toNat % 64 } := by
  obtain ⟨⟨s, h, t, nullt⟩, x, nx, len⟩ := d
  simp only at hs hh hx hn
  match s, hs with
  | [s0, s1, s2, s3], _ =>
    match h, hh with
    | [h0, h1, h2, h3, h4, h5, h6, h7], _ =>
      generalize hX : x.take nx ++ zeros (64 - nx) = X
      have hXl : X.length = 64 := by rw [← hX]; simp [hx]; omega
      have hm : marshal ⟨⟨[s0, s1, s2, s3], [h0, h1, h2, h3, h4, h5, h6, h7], t, nullt⟩, x, nx, len⟩ =
          magic ++ (([s0, s1, s2, s3].map be32).flatten ++ (X ++ (be64 len ++
            (([h0, h1, h2, h3, h4, h5, h6, h7].map be32).flatten ++ (be64 t ++ (if nullt then [1#8] else [0#8])))))) := by
        rw [← hX]
        simp only [marshal, List.getD_cons_zero, List.getD_cons_succ, List.map_cons, List.map_nil,
          List.flatten_cons, List.flatten_nil, List.append_assoc, List.append_nil]
      rw [hm]
      have hl1 : (([s0, s1, s2, s3].map be32).flatten).length = 16 := by rw [map_be32_length]; rfl
      have hl2 : (([h0, h1, h2, h3, h4, h5, h6, h7].map be32).flatten).length = 32 := by
        rw [map_be32_length]; rfl
      have hl3 : (be64 t ++ (if nullt then [1#8] else [0#8])).length = 9 := by cases nullt <;> rfl
      generalize hR : be64 t ++ (if nullt then [1#8] else [0#8]) = R at *
      unfold unmarshal
      rw [if_neg (by
        rw [List.take_left' rfl, List.length_append]; simp)]
      rw [if_neg (by
        simp only [List.length_append, hl1, hl2, hl3, hXl, be64_length, marshaledSize, ne_eq, Decidable.not_not])]
      rw [List.drop_left' rfl]
      dsimp only
      rw [List.drop_left' hl1, List.drop_left' hXl, List.take_left' hXl, List.drop_left' (be64_length len),
        List.drop_left' hl2, getBE64_be64]
      have e := fun i hi => getBE32_flatten [s0, s1, s2, s3] (X ++ (be64 len ++
            (([h0, h1, h2, h3, h4, h5, h6, h7].map be32).flatten ++ R))) i hi
      have e0 := e 0 (by simp)
      have e1 := e 1 (by simp)
      have e2 := e 2 (by simp)
      have e3 := e 3 (by simp)
      have f := fun i hi => getBE32_flatten [h0, h1, h2, h3, h4, h5, h6, h7] R i hi
      have f0 := f 0 (by simp)
      have f1 := f 1 (by simp)
      have f2 := f 2 (by simp)
      have f3 := f 3 (by simp)
      have f4 := f 4 (by simp)
      have f5 := f 5 (by simp)
      have f6 := f 6 (by simp)
      have f7 := f 7 (by simp)
      simp only [Nat.reduceMul, List.getD_cons_zero, List.getD_cons_succ] at e0 e1 e2 e3 f0 f1 f2 f3 f4 f5 f6 f7
      rw [e0, e1, e2, e3, f0, f1, f2, f3, f4, f5, f6, f7]
      rw [← hR, getBE64_be64, List.drop_left' (be64_length t)]
      cases nullt <;> rfl

/-- The digest represents `m` with salt words `s`. -/
def SRepr (iv : List U32) (s : List U32) (d : Digest) (m : Bytes) : Prop :=
  s.length = 4 ∧ d.Repr 64 compress (State.mk s iv 0#64 false) m

theorem load_save (iv s : List U32) (hiv : iv.length = 8) (d r : Digest) (m : Bytes) (h : SRepr iv s d m) :
    ∃ d', unmarshal r (marshal d) = some d' ∧ SRepr iv s d' m := by
  obtain ⟨hs, h⟩ := h
  have hb := h.buf
  have hnx := hb.nx_lt (by omega)
  have hk := fold_keeps (fullBlocks 64 m) (State.mk s iv 0#64 false) hiv
  refine ⟨_, unmarshal_marshal d r (by rw [hb.state, hk.1]; exact hs) (by rw [hb.state]; exact hk.2.1)
    hb.xlen hnx, hs, ?_⟩
  have htk : (d.x.take d.nx).length = d.nx := by simp [hb.xlen]; omega
  have hnx' : d.len.toNat % 64 = d.nx := by
    rw [h.len_eq, hb.nx_eq]; simp
  refine ⟨⟨hb.state, by simp [hb.xlen]; omega, ?_, ?_⟩, h.len_eq⟩
  · simp only; rw [hnx', hb.nx_eq]
  · simp only
    rw [hnx', ← hb.pend]; exact List.take_left' htk

theorem exec_repr (hs : Nat) (iv : List U32) (ops : List Op) : ∀ (d d' : Digest) (s : List U32) (m : Bytes),
    SRepr iv s d m → (impl hs iv).exec d ops = some d' → ∃ s m, SRepr iv s d' m := by
  induction ops with
  | nil => intro d d' s m h e; cases e; exact ⟨s, m, h⟩
  | cons o ops ih =>
    intro d d' s m h e
    cases o with
    | write p => exact ih _ d' s (m ++ p) ⟨h.1, h.2.absorb (by omega) p⟩ e
    | sum b => exact ih _ d' s m h e
    | reset => exact ih _ d' [0, 0, 0, 0] [] ⟨rfl, .init ⟨rfl, zeros_length 64, rfl, rfl⟩⟩ e
    | size => exact ih _ d' s m h e
    | blockSize => exact ih _ d' s m h e

theorem run_repr (hs : Nat) (iv : List U32) (H : List U32 → Bytes → Bytes)
    (hsum : ∀ s d m, d.Repr 64 compress (State.mk s iv 0#64 false) m → checkSum hs d = H s m)
    (ops : List Op) : ∀ (d d' : Digest) (s : List U32) (m : Bytes),
    SRepr iv s d m → SRepr iv s d' m → (impl hs iv).run d' ops = (impl hs iv).run d ops := by
  induction ops with
  | nil => intros; rfl
  | cons o ops ih =>
    intro d d' s m h h'
    cases o with
    | write p =>
      simp only [HashImpl.run, impl]
      congr 1
      exact ih _ _ s (m ++ p) ⟨h.1, h.2.absorb (by omega) p⟩ ⟨h.1, h'.2.absorb (by omega) p⟩
    | sum b =>
      simp only [HashImpl.run, impl]
      rw [hsum s d m h.2, hsum s d' m h'.2]
      congr 1
      exact ih _ _ s m h h'
    | reset => rfl
    | size =>
      simp only [HashImpl.run]
      congr 1
      exact ih _ _ s m h h'
    | blockSize =>
      simp only [HashImpl.run]
      congr 1
      exact ih _ _ s m h h'

theorem roundTrips (hs : Nat) (iv : List U32) (hiv : iv.length = 8) (H : List U32 → Bytes → Bytes)
    (hsum : ∀ s d m, d.Repr 64 compress (State.mk s iv 0#64 false) m → checkSum hs d = H s m)
    (d0 : Digest) (s : List U32) (h0 : SRepr iv s d0 []) :
    RoundTrips (impl hs iv) d0 marshal unmarshal := by
  intro ops d r he
  obtain ⟨s, m, h⟩ := exec_repr hs iv ops d0 d s [] h0 he
  obtain ⟨d', e, h'⟩ := load_save iv s hiv d r m h
  exact ⟨d', e, fun more => run_repr hs iv H hsum more d d' s m h h'⟩

end BLAKE256

namespace BLAKE512

/-- What the block function keeps. -/
theorem fold_keeps (l : List Bytes) : ∀ st : State, st.h.length = 8 →
    (l.foldl compress st).s = st.s ∧ (l.foldl compress st).h.length = 8 := by
  induction l with
  | nil => intro st h; exact ⟨rfl, h⟩
  | cons p l ih =>
    intro st h
    have k1 : (compress st p).s = st.s := by unfold compress; rfl
    have hl : (compress st p).h.length = 8 := by
      unfold compress; rfl
    have := ih (compress st p) hl
    rw [List.foldl_cons]
    rw [k1] at this
    exact this

/-- Reading back what was written. -/
theorem unmarshal_marshal (d r : Digest) (hs : d.s.s.length = 4) (hh : d.s.h.length = 8)
    (hx : d.x.length = 128) (hn : d.nx < 128) :
    unmarshal r (marshal d) = some { d with x := d.x.take d.nx ++ zeros (128 - d.nx), nx := d.len.toNat % 128 } := by
  obtain ⟨⟨s, h, t0, t1⟩, x, nx, len⟩ := d
  simp only at hs hh hx hn
  match s, hs with
  | [s0, s1, s2, s3], _ =>
    match h, hh with
    | [h0, h1, h2, h3, h4, h5, h6, h7], _ =>
      generalize hX : x.take nx ++ zeros (128 - nx) = X
      have hXl : X.length = 128 := by rw [← hX]; simp [hx]; omega
      have hm : marshal ⟨⟨[s0, s1, s2, s3], [h0, h1, h2, h3, h4, h5, h6, h7], t0, t1⟩, x, nx, len⟩ =
          magic ++ (([s0, s1, s2, s3].map be64).flatten ++ (X ++ (be64 len ++
            (([h0, h1, h2, h3, h4, h5, h6, h7].map be64).flatten ++ (be64 t0 ++ be64 t1))))) := by
        rw [← hX]
        simp only [marshal, List.getD_cons_zero, List.getD_cons_succ, List.map_cons, List.map_nil,
          List.flatten_cons, List.flatten_nil, List.append_assoc, List.append_nil]
      rw [hm]
      have hl1 : (([s0, s1, s2, s3].map be64).flatten).length = 32 := by rw [map_be64_length]; rfl
      have hl2 : (([h0, h1, h2, h3, h4, h5, h6, h7].map be64).flatten).length = 64 := by
        rw [map_be64_length]; rfl
      have hl3 : (be64 t0 ++ be64 t1).length = 16 := by rfl
      generalize hR : be64 t0 ++ be64 t1 = R at *
      unfold unmarshal
      rw [if_neg (by
        rw [List.take_left' rfl, List.length_append]; simp)]
      rw [if_neg (by
        simp only [List.length_append, hl1, hl2, hl3, hXl, be64_length, marshaledSize, ne_eq, Decidable.not_not])]
      rw [List.drop_left' rfl]
      dsimp only
      rw [List.drop_left' hl1, List.drop_left' hXl, List.take_left' hXl, List.drop_left' (be64_length len),
        List.drop_left' hl2, getBE64_be64]
      have e := fun i hi => getBE64_flatten [s0, s1, s2, s3] (X ++ (be64 len ++
            (([h0, h1, h2, h3, h4, h5, h6, h7].map be64).flatten ++ R))) i hi
      have e0 := e 0 (by simp)
      have e1 := e 1 (by simp)
      have e2 := e 2 (by simp)
      have e3 := e 3 (by simp)
      have f := fun i hi => getBE64_flatten [h0, h1, h2, h3, h4, h5, h6, h7] R i hi
      have f0 := f 0 (by simp)
      have f1 := f 1 (by simp)
      have f2 := f 2 (by simp)
      have f3 := f 3 (by simp)
      have f4 := f 4 (by simp)
      have f5 := f 5 (by simp)
      have f6 := f 6 (by simp)
      have f7 := f 7 (by simp)
      simp only [Nat.reduceMul, List.getD_cons_zero, List.getD_cons_succ] at e0 e1 e2 e3 f0 f1 f2 f3 f4 f5 f6 f7
      rw [e0, e1, e2, e3, f0, f1, f2, f3, f4, f5, f6, f7]
      rw [← hR, getBE64_be64, show getBE64 (be64 t0 ++ be64 t1) 8 = t1 by
        have := getBE64_drop (be64 t0 ++ be64 t1) 8 0
        rw [List.drop_left' (be64_length t0)] at this
        rw [← this]
        have h2 := getBE64_be64 t1 []
        rwa [List.append_nil] at h2]

/-- The digest represents `m` with salt words `s`. -/
def SRepr (iv : List U64) (s : List U64) (d : Digest) (m : Bytes) : Prop :=
  s.length = 4 ∧ d.Repr 128 compress (State.mk s iv 0#64 0#64) m

theorem load_save (iv s : List U64) (hiv : iv.length = 8) (d r : Digest) (m : Bytes) (h : SRepr iv s d m) :
    ∃ d', unmarshal r (marshal d) = some d' ∧ SRepr iv s d' m := by
  obtain ⟨hs, h⟩ := h
  have hb := h.buf
  have hnx := hb.nx_lt (by omega)
  have hk := fold_keeps (fullBlocks 128 m) (State.mk s iv 0#64 0#64) hiv
  refine ⟨_, unmarshal_marshal d r (by rw [hb.state, hk.1]; exact hs) (by rw [hb.state]; exact hk.2)
    hb.xlen hnx, hs, ?_⟩
  have htk : (d.x.take d.nx).length = d.nx := by simp [hb.xlen]; omega
  have hnx' : d.len.toNat % 128 = d.nx := by
    rw [h.len_eq, hb.nx_eq]; simp
  refine ⟨⟨hb.state, by simp [hb.xlen]; omega, ?_, ?_⟩, h.len_eq⟩
  · simp only; rw [hnx', hb.nx_eq]
  · simp only
    rw [hnx', ← hb.pend]; exact List.take_left' htk

theorem exec_repr (hs : Nat) (iv : List U64) (ops : List Op) : ∀ (d d' : Digest) (s : List U64) (m : Bytes),
    SRepr iv s d m → (impl hs iv).exec d ops = some d' → ∃ s m, SRepr iv s d' m := by
  induction ops with
  | nil => intro d d' s m h e; cases e; exact ⟨s, m, h⟩
  | cons o ops ih =>
    intro d d' s m h e
    cases o with
    | write p => exact ih _ d' s (m ++ p) ⟨h.1, h.2.absorb (by omega) p⟩ e
    | sum b => exact ih _ d' s m h e
    | reset => exact ih _ d' [0, 0, 0, 0] [] ⟨rfl, .init ⟨rfl, zeros_length 128, rfl, rfl⟩⟩ e
    | size => exact ih _ d' s m h e
    | blockSize => exact ih _ d' s m h e

theorem run_repr (hs : Nat) (iv : List U64) (H : List U64 → Bytes → Bytes)
    (hsum : ∀ s d m, d.Repr 128 compress (State.mk s iv 0#64 0#64) m → checkSum hs d = H s m)
    (ops : List Op) : ∀ (d d' : Digest) (s : List U64) (m : Bytes),
    SRepr iv s d m → SRepr iv s d' m → (impl hs iv).run d' ops = (impl hs iv).run d ops := by
  induction ops with
  | nil => intros; rfl
  | cons o ops ih =>
    intro d d' s m h h'
    cases o with
    | write p =>
      simp only [HashImpl.run, impl]
      congr 1
      exact ih _ _ s (m ++ p) ⟨h.1, h.2.absorb (by omega) p⟩ ⟨h.1, h'.2.absorb (by omega) p⟩
    | sum b =>
      simp only [HashImpl.run, impl]
      rw [hsum s d m h.2, hsum s d' m h'.2]
      congr 1
      exact ih _ _ s m h h'
    | reset => rfl
    | size =>
      simp only [HashImpl.run]
      congr 1
      exact ih _ _ s m h h'
    | blockSize =>
      simp only [HashImpl.run]
      congr 1
      exact ih _ _ s m h h'

theorem roundTrips (hs : Nat) (iv : List U64) (hiv : iv.length = 8) (H : List U64 → Bytes → Bytes)
    (hsum : ∀ s d m, d.Repr 128 compress (State.mk s iv 0#64 0#64) m → checkSum hs d = H s m)
    (d0 : Digest) (s : List U64) (h0 : SRepr iv s d0 []) :
    RoundTrips (impl hs iv) d0 marshal unmarshal := by
  intro ops d r he
  obtain ⟨s, m, h⟩ := exec_repr hs iv ops d0 d s [] h0 he
  obtain ⟨d', e, h'⟩ := load_save iv s hiv d r m h
  exact ⟨d', e, fun more => run_repr hs iv H hsum more d d' s m h h'⟩

end BLAKE512

end Verif
