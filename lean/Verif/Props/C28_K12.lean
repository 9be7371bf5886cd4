import Verif.Lemmas.K12
import Verif.HistAuto
/-
C28: package k12.
-/
namespace Verif.Props
open Verif.K12
open Verif.Spec

/-- A caller's view of a history: the bytes written before the last Reset, and since. -/
def k12Next (t : Nat × Nat) : Op → Nat × Nat
  | .write p => (t.1, t.2 + p.length)
  | .reset => (t.1 + t.2, 0)
  | _ => t
/-- The calls for which the contract holds: without a Reset after data, all (below 2^63 bytes); in any case, as long as all data since
construction, with the customisation string and its encoded length, fit one chunk of 8192 bytes. -/
def k12Ok (c : Bytes) (t : Nat × Nat) : Op → Prop
  | .write p => t.2 + p.length < 2 ^ 63 ∧ (t.1 = 0 ∨ t.1 + t.2 + p.length ≤ 8192)
  | .sum _ => t.1 = 0 ∨ t.1 + t.2 + c.length + (K12.lengthEncode c.length).length ≤ 8192
  | .reset => t.1 + t.2 ≤ 8192
  | _ => True

/-- The contract of C28 for every customisation string, every output size, all histories without Reset (messages below 2^63 bytes), and
the histories with Resets whose data fit the first chunk.  Missing: Reset in general, for which it is false (`C28_k12_reset_violated`). -/
theorem C28_k12_partial (c : Bytes) (hc : c.length < 2 ^ 63) (hs : Nat) :
    RefinesOn (Permits (k12Ok c) k12Next (0, 0)) impl (newDigest c hs) { H := fun m => K12.kt m c hs, size := hs, blockSize := 8192 } := by
  refine refinesOn_permits_of_sim _ _ _ impl _ _
    (fun d t m => t.2 = m.length ∧ m.length < 2 ^ 63 ∧ (0 < d.numChunk → 0 < d.currentWritten) ∧ Rep c hs d t.1 m) ?_ ?_ ?_ ?_ ?_ ?_
  · exact ⟨rfl, by decide, fun h => absurd h (Nat.lt_irrefl 0), init_rep c hs⟩
  · rintro d ⟨o, k⟩ m p ⟨rfl, hm, hp, h⟩ ⟨hlt, hok⟩
    dsimp only at hlt hok
    have hcw : o = 0 ∨ d.currentWritten = o + m.length := by
      by_cases hn : d.numChunk = 0
      · exact Or.inr (h.one hn).1
      · exact Or.inl (h.many (by omega)).1
    have := write_rep h p (by rcases hok with h | h <;> omega)
    refine ⟨(d.write p).1, ?_, ?_, ?_, ?_, this.2.1⟩
    · show some (d.write p) = _; rw [← this.1]
    · rw [List.length_append]; rfl
    · rw [List.length_append]; exact hlt
    · intro hn0
      by_cases hpe : p = []
      · subst hpe
        have e : (d.write []).1 = d := by unfold Digest.write; rw [h.ab]; rfl
        rw [e] at hn0 ⊢
        exact hp hn0
      · exact this.2.2 hpe
  · rintro d ⟨o, k⟩ m b ⟨rfl, hm, hp, h⟩ hok
    refine ⟨d, ?_, rfl, hm, hp, h⟩
    have hel := lengthEncode_length c.length (by omega)
    have hfl : (full m c).length = m.length + c.length + (K12.lengthEncode c.length).length := by
      unfold full; rw [List.length_append, List.length_append]
    have hok' : o = 0 ∨ o + m.length + c.length + (K12.lengthEncode c.length).length ≤ 8192 := hok
    have := read_rep h (by omega) (by omega) (by rcases hok' with h | h <;> omega) hs
    show (d.sum b).map _ = some (d, b ++ K12.kt m c hs)
    unfold Digest.sum
    rw [h.hs, if_neg (by omega), Int.toNat_natCast, this.1]; rfl
  · rintro d ⟨o, k⟩ m ⟨rfl, hm, hp, h⟩ hok
    have := reset_rep h hp hok
    refine ⟨rfl, by decide, fun hn => ?_, this.1⟩
    have hn' : 0 < d.reset.numChunk := hn
    omega
  · rintro d t m h
    refine ⟨?_, fun _ => h⟩
    show d.hashSize.toNat = hs
    rw [h.2.2.2.hs]; rfl
  · rintro d t m h; exact ⟨rfl, fun _ => h⟩

/-- Without Reset every history below 2^63 bytes is permitted. -/
theorem C28_k12_noReset (c : Bytes) (hc : c.length < 2 ^ 63) (hs : Nat) (ops : List Op) (h1 : .reset ∉ ops)
    (h2 : (ops.map fun o => match o with | .write p => p.length | _ => 0).sum < 2 ^ 63) :
    impl.run (newDigest c hs) ops = HashSpec.run { H := fun m => K12.kt m c hs, size := hs, blockSize := 8192 } [] ops := by
  refine C28_k12_partial c hc hs ops ?_
  suffices h : ∀ ops k, Op.reset ∉ ops → k + (ops.map fun o => match o with | .write p => p.length | _ => 0).sum < 2 ^ 63 →
      Permits (k12Ok c) k12Next (0, k) ops from h ops 0 h1 (by rw [Nat.zero_add]; exact h2)
  intro ops
  induction ops with
  | nil => intros; trivial
  | cons o ops ih =>
    intro k h1 h2
    rw [List.map_cons, List.sum_cons] at h2
    have h3 : Op.reset ∉ ops := fun h => h1 (List.mem_cons_of_mem _ h)
    cases o with
    | write p =>
      dsimp only at h2
      exact ⟨⟨by show k + p.length < _; omega, Or.inl rfl⟩, ih (k + p.length) h3 (by omega)⟩
    | sum b => exact ⟨Or.inl rfl, ih k h3 (by dsimp only at h2; omega)⟩
    | reset => exact absurd (List.mem_cons_self ..) h1
    | size => exact ⟨trivial, ih k h3 (by dsimp only at h2; omega)⟩
    | blockSize => exact ⟨trivial, ih k h3 (by dsimp only at h2; omega)⟩

/-- The output is one stream: a digest with a larger size begins with the digest of a smaller one, and `Read` in pieces gives the same
bytes as one `Read`. -/
theorem C28_k12_stream (c : Bytes) (hc : c.length < 2 ^ 63) (hs : Nat) (m : Bytes) (hm : m.length < 2 ^ 63) (Ls : List Nat) :
    (Ls.foldl (fun (s : Digest × Bytes) L => ((s.1.read L).1, s.2 ++ (s.1.read L).2)) (((newDigest c hs).write m).1, [])).2 = K12.kt m c Ls.sum := by
  have hw := write_rep (init_rep c hs) m (Or.inl rfl)
  rw [List.nil_append] at hw
  have h := hw.2.1
  generalize ((newDigest c hs).write m).1 = d at *
  have hel := lengthEncode_length c.length (by omega)
  have hfl : (full m c).length = m.length + c.length + (K12.lengthEncode c.length).length := by
    unfold full; rw [List.length_append, List.length_append]
  cases Ls with
  | nil => rw [kt_eq]; rfl
  | cons L Ls =>
    have h1 := read_rep h (by omega) (by omega) (Or.inl rfl) L
    rw [List.foldl_cons]
    dsimp only
    rw [List.nil_append, h1.1, kt_eq]
    generalize (d.read L).1 = e at *
    rw [List.sum_cons, kt_eq]
    generalize (last (full m c)).1 = M at *
    generalize (last (full m c)).2 = D at *
    have key : ∀ (Ls : List Nat) (L : Nat) (e : Digest), e.squeezing = true → SqRep e.state (K12.sponge M D) L →
        (Ls.foldl (fun (s : Digest × Bytes) L => ((s.1.read L).1, s.2 ++ (s.1.read L).2)) (e, K12.turbo M D L)).2 = K12.turbo M D (L + Ls.sum) := by
      intro Ls
      induction Ls with
      | nil => intros; rfl
      | cons K Ls ih =>
        intro L e hsq hst
        have hr := hst.read K
        have er : e.read K = ({ e with state := (e.state.read K).1 }, (e.state.read K).2) := by
          unfold Digest.read; rw [if_pos hsq]
        rw [List.foldl_cons, er, List.sum_cons, ← Nat.add_assoc, hr.1]
        have ea : K12.turbo M D L ++ (List.range K).map (fun j => K12.streamAt (K12.sponge M D) (L + j)) = K12.turbo M D (L + K) := by
          unfold K12.turbo
          rw [List.range_add, List.map_append, List.map_map]; rfl
        dsimp only
        rw [ea]
        exact ih _ _ hsq hr.2
    exact key Ls L e h1.2.1 h1.2.2

/-- A sponge that has absorbed nothing. -/
def k12Sponge (ds : Byte) : Sponge := ⟨List.replicate 25 0, ds, 0, 0, zeros 168, false⟩
theorem k12_turbo (ds : Byte) (M : Bytes) (L : Nat) : K12.turbo M ds L = (((k12Sponge ds).write M).1.read L).2 := by
  have h : SpRep (k12Sponge ds) ds [] := SpRep.nil (k12Sponge ds) rfl
  exact ((h.write M).2.read L).1.symm

theorem k12_enc0 : rightEncode (BitVec.ofNat 64 ([] : Bytes).length) = [0] := by decide
theorem k12_enc1 : rightEncode (BitVec.ofNat 64 1) = [1, 1] := by decide
theorem k12_write_nil (d : Digest) (h : d.squeezing = false) : (d.write []).1 = d := by unfold Digest.write; rw [h]; rfl
theorem k12_write_one (s c : Sponge) (t : Bytes) (x : Byte) : (Digest.write ⟨[], false, s, 1, c, 1, t, 32⟩ [x]).1 =
    ⟨[], false, s, 1, (c.write [x]).1, 1 + (c.write [x]).2, t, 32⟩ := by
  unfold Digest.write
  rw [if_neg (show ¬ false = true from by decide)]
  dsimp only [List.length_singleton]
  unfold Digest.writeLoop
  rw [if_neg (show ¬ [x].length = 0 from by rw [List.length_singleton]; omega)]
  have e : Digest.nextChunk ⟨[], false, s, 1, c, 1, t, 32⟩ = ⟨[], false, s, 1, c, 1, t, 32⟩ := by
    unfold Digest.nextChunk
    rw [if_neg (by dsimp only; omega)]
  rw [e]
  dsimp only
  rw [if_pos (show 8192 - 1 > [x].length from by rw [List.length_singleton]; omega)]
  unfold Digest.writeLoop Digest.absorb
  rw [if_neg (by dsimp only; omega)]
  rfl
/-- The end of an object that believes that it is in its second chunk. -/
theorem k12_finish_two (f2 : Bool) (f3 f5 : Sponge) (f7 : Bytes) : Digest.finish (Digest.reset ⟨[], f2, f3, 1, f5, 1, f7, 32⟩) =
    ⟨[], true, { (((f3.reset.write ((f5.reset.write [0]).1.read 32).2).1.write [1, 1]).1.write [0xff, 0xff]).1 with dsbyte := 0x06 }, 1,
      ((f5.reset.write [0]).1.read 32).1, 1 + (f5.reset.write [0]).2, ((f5.reset.write [0]).1.read 32).2, 32⟩ := by
  unfold Digest.reset
  dsimp only
  generalize f3.reset = s
  generalize f5.reset = c
  unfold Digest.finish
  dsimp only
  rw [k12_write_nil _ rfl, k12_enc0, k12_write_one]
  dsimp only
  rw [if_neg (by omega), k12_enc1]

theorem k12_two_ne : ¬ (((k12Sponge 0x06).write ((((k12Sponge 0x0b).write [0]).1.read 32).2 ++ [1, 1] ++ [0xff, 0xff])).1.read 32).2 =
    (((k12Sponge (last (full [] [])).2).write (last (full [] [])).1).1.read 32).2 := by
  have e : last (full [] []) = ([0], 0x07) := by decide +kernel
  rw [e]
  decide +kernel

theorem k12_sum_reset (d : Digest) (b : Bytes) (h1 : d.squeezing = false) (h2 : d.hashSize = 32) : d.sum b = some (b ++ (d.finish.state.read 32).2) := by
  unfold Digest.sum Digest.read
  rw [h2, h1]
  rfl

/-- Reset does not forget that a second chunk was begun: after 8193 bytes and Reset, `Sum` is not the hash of the empty message. -/
theorem C28_k12_reset_violated (M : Bytes) (hM : M.length = 8193) :
    impl.run (newDigest [] 32) [.write M, .reset, .sum []] ≠
      HashSpec.run { H := fun m => K12.kt m [] 32, size := 32, blockSize := 8192 } [] [.write M, .reset, .sum []] := by
  have hw := write_rep (init_rep [] 32) M (Or.inl rfl)
  rw [List.nil_append] at hw
  obtain ⟨_, h, hp⟩ := hw
  have hp := hp (fun h => by rw [h] at hM; exact absurd hM (by decide))
  intro he
  have e1 : impl.run (newDigest [] 32) [.write M, .reset, .sum []] =
      .wrote ((newDigest [] 32).write M).2 :: .done :: impl.run ((newDigest [] 32).write M).1.reset [.sum []] := rfl
  rw [e1] at he
  simp only [HashSpec.run, List.cons.injEq] at he
  obtain ⟨-, -, he⟩ := he
  generalize ((newDigest [] 32).write M).1 = d at *
  have hle := h.le
  have hn : d.numChunk = 1 := by
    by_cases h0 : d.numChunk = 0
    · have := (h.one h0).1; omega
    · have := (h.many (by omega)).2.1; omega
  have hcw : d.currentWritten = 1 := by have := (h.many (by omega)).2.1; omega
  obtain ⟨_, _, ⟨ds, h2⟩, h3⟩ := h.many (by omega)
  -- the digest after Reset
  have hs0 : SpRep d.state.reset d.state.dsbyte [] := SpRep.nil _ h2.sl
  have hc0 : SpRep d.currentChunk.reset 0x0b [] := by have := SpRep.nil d.currentChunk h3.sl; rw [h3.ds] at this; exact this
  have hsum : d.reset.sum [] = some (K12.turbo (K12.turbo [0] 0x0b 32 ++ [1, 1] ++ [0xff, 0xff]) 0x06 32) := by
    have hcs : d.customString = [] := h.cs
    have hhs : d.hashSize = 32 := h.hs
    obtain ⟨f1, f2, f3, f4, f5, f6, f7, f8⟩ := d
    dsimp only at hn hcw hs0 hc0 hcs hhs
    subst hn hcw hcs hhs
    have hq1 := hc0.write [0]
    have hfin := k12_finish_two f2 f3 f5 f7
    rw [List.nil_append] at hq1
    have hrd := (hq1.2.read 32).1
    rw [hrd] at hfin
    have hst := ((((hs0.write (K12.turbo [0] 0x0b 32)).2).write [1, 1]).2.write [0xff, 0xff]).2.setDs 0x06
    rw [List.nil_append] at hst
    have hfr := (hst.read 32).1
    have e3 : Digest.sum (Digest.reset ⟨[], f2, f3, 1, f5, 1, f7, 32⟩) [] =
        some ([] ++ ((Digest.finish (Digest.reset ⟨[], f2, f3, 1, f5, 1, f7, 32⟩)).state.read 32).2) := by
      exact k12_sum_reset _ _ rfl rfl
    rw [e3, hfin, List.nil_append]
    dsimp only
    rw [hfr]
  have e2 : impl.sum d.reset [] = some (d.reset, K12.turbo (K12.turbo [0] 0x0b 32 ++ [1, 1] ++ [0xff, 0xff]) 0x06 32) := by
    show (d.reset.sum []).map _ = _
    rw [hsum, Option.map_some]
  simp only [HashImpl.run, e2] at he
  simp only [List.cons.injEq, Out.bytes.injEq, and_true, List.nil_append] at he
  rw [k12_turbo, k12_turbo, kt_eq, k12_turbo] at he
  exact k12_two_ne he

/-- A negative output size makes `Sum` panic. -/
theorem C28_k12_negative_violated (c : Bytes) (hs : Int) (h : hs < 0) (b : Bytes) : impl.run (newDigest c hs) [.sum b] = [.panicked] := by
  have : impl.sum (newDigest c hs) b = none := by
    show ((newDigest c hs).sum b).map _ = none
    unfold Digest.sum
    rw [if_pos (show (newDigest c hs).hashSize < 0 from h)]; rfl
  simp only [HashImpl.run, this]

/-! Non-vacuity: a permitted history with a Reset and two writes. -/
example : Permits (k12Ok [1, 2, 3]) k12Next (0, 0) [.write (zeros 5), .sum [7], .reset, .write (zeros 7), .write (zeros 90), .sum []] := by
  have e : (K12.lengthEncode [1, 2, 3].length).length = 2 := by decide +kernel
  refine ⟨⟨by decide, Or.inl rfl⟩, Or.inl rfl, ?_, ⟨by decide, Or.inr (by decide)⟩, ⟨by decide, Or.inr (by decide)⟩, Or.inr ?_, trivial⟩
  · show 0 + (0 + (zeros 5).length) ≤ 8192; decide
  · show 5 + (0 + 7 + 90) + 3 + (K12.lengthEncode [1, 2, 3].length).length ≤ 8192; omega
/-! A test: KT128 of the empty message (RFC 9861), computed by the model. -/
example : ((newDigest [] 32).read 32).2 = hex "1ac2d450fc3b4205d19da7bfca1b37513c0803577ac7167f06fe2ce1f0ef39e5" := by decide +kernel

end Verif.Props
