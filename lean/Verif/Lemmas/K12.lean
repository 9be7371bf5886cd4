import Verif.Lemmas.K12Sponge
import Verif.Lemmas.GFBlock
/-
The tree hash of package k12.
-/
namespace Verif.K12
open Verif.Keccak
open Verif.Spec

/-! ### rightEncode -/

theorem digits_beNat (l : Bytes) : K12.digits (beNat l) = l.dropWhile (· == 0#8) := by
  suffices h : ∀ r : Bytes, K12.digits (beNat r.reverse) = r.reverse.dropWhile (· == 0#8) by
    have := h l.reverse
    rwa [List.reverse_reverse] at this
  intro r
  induction r with
  | nil => unfold K12.digits; rfl
  | cons b r ih =>
    rw [List.reverse_cons, beNat_snoc, List.dropWhile_append, ← ih]
    have hb := b.isLt
    have e : (beNat r.reverse * 256 + b.toNat) / 256 = beNat r.reverse := by omega
    have e2 : BitVec.ofNat 8 (beNat r.reverse * 256 + b.toNat) = b := by
      apply BitVec.eq_of_toNat_eq; rw [BitVec.toNat_ofNat]; omega
    by_cases h0 : beNat r.reverse = 0
    · have hd : K12.digits (beNat r.reverse) = [] := by rw [h0]; unfold K12.digits; rfl
      rw [hd]
      by_cases hz : b = 0#8
      · subst hz; rw [h0]; unfold K12.digits; rfl
      · have hn : b.toNat ≠ 0 := fun h => hz (BitVec.eq_of_toNat_eq h)
        unfold K12.digits
        rw [if_neg (by omega), e, hd, e2]
        simp [hz]
    · have hd : K12.digits (beNat r.reverse) ≠ [] := by
        unfold K12.digits; rw [if_neg h0]; simp
      have hne : (K12.digits (beNat r.reverse)).isEmpty = false := by simpa using hd
      rw [hne]
      conv => lhs; unfold K12.digits
      rw [if_neg (by omega), e, e2]; rfl

theorem beNat_be64 (v : U64) : beNat (be64 v) = v.toNat := by
  have := v.isLt
  simp only [beNat, be64, List.foldl_cons, List.foldl_nil, BitVec.extractLsb'_toNat, Nat.shiftRight_eq_div_pow]
  omega

theorem lead_drop (b : Bytes) (hb : b.length = 8) (v : U64) (hv : b = be64 v) : rightEncode v = b.dropWhile (· == 0#8) ++ [BitVec.ofNat 8 (b.dropWhile (· == 0#8)).length] := by
  have h0 : v = 0 ↔ b = zeros 8 := by
    rw [hv]; constructor
    · rintro rfl; rfl
    · intro h; exact be64_inj (h.trans rfl)
  unfold rightEncode
  rw [← hv]
  match b, hb with
  | [b0, b1, b2, b3, b4, b5, b6, b7], _ =>
    clear hv
    dsimp only
    by_cases hz : v = 0
    · rw [if_pos hz, h0.mp hz]; rfl
    rw [if_neg hz]
    have hr : List.range 9 = [0, 1, 2, 3, 4, 5, 6, 7, 8] := rfl
    rw [hr]
    by_cases c0 : b0 = 0#8
    case neg => simp [List.find?, at8, c0, List.dropWhile_cons]
    subst c0
    by_cases c1 : b1 = 0#8
    case neg => simp [List.find?, at8, c1, List.dropWhile_cons]
    subst c1
    by_cases c2 : b2 = 0#8
    case neg => simp [List.find?, at8, c2, List.dropWhile_cons]
    subst c2
    by_cases c3 : b3 = 0#8
    case neg => simp [List.find?, at8, c3, List.dropWhile_cons]
    subst c3
    by_cases c4 : b4 = 0#8
    case neg => simp [List.find?, at8, c4, List.dropWhile_cons]
    subst c4
    by_cases c5 : b5 = 0#8
    case neg => simp [List.find?, at8, c5, List.dropWhile_cons]
    subst c5
    by_cases c6 : b6 = 0#8
    case neg => simp [List.find?, at8, c6, List.dropWhile_cons]
    subst c6
    by_cases c7 : b7 = 0#8
    case neg => simp [List.find?, at8, c7, List.dropWhile_cons]
    subst c7
    exact absurd (h0.mpr rfl) hz

theorem rightEncode_eq (x : Nat) (h : x < 2 ^ 64) : rightEncode (BitVec.ofNat 64 x) = K12.lengthEncode x := by
  rw [lead_drop _ rfl _ rfl]
  unfold K12.lengthEncode
  have : x = beNat (be64 (BitVec.ofNat 64 x)) := by rw [beNat_be64, BitVec.toNat_ofNat, Nat.mod_eq_of_lt h]
  conv => rhs; rw [this]
  rw [digits_beNat]

theorem lengthEncode_length (x : Nat) (h : x < 2 ^ 64) : 1 ≤ (K12.lengthEncode x).length ∧ (K12.lengthEncode x).length ≤ 9 := by
  rw [← rightEncode_eq x h, lead_drop _ rfl _ rfl]
  have := (List.dropWhile_sublist (· == 0#8) (l := be64 (BitVec.ofNat 64 x))).length_le
  have h8 : (be64 (BitVec.ofNat 64 x)).length = 8 := rfl
  have h3 : ((be64 (BitVec.ofNat 64 x)).dropWhile (· == 0#8)).length ≤ 8 := Nat.le_trans this (Nat.le_of_eq h8)
  rw [List.length_append, List.length_singleton]
  exact ⟨Nat.le_add_left .., Nat.add_le_add_right h3 1⟩

/-! ### Chunks -/

/-- What the main state has absorbed when chunk number `c > 0` is being filled. -/
def top (S : Bytes) (c : Nat) : Bytes :=
  K12.chunk S 0 ++ [3, 0, 0, 0, 0, 0, 0, 0] ++ ((List.range' 1 (c - 1)).map fun i => K12.turbo (K12.chunk S i) 0x0b 32).flatten

theorem chunk_append (S q : Bytes) (i : Nat) (h : 8192 * (i + 1) ≤ S.length) : K12.chunk (S ++ q) i = K12.chunk S i := by
  unfold K12.chunk
  rw [List.drop_append_of_le_length (by omega), List.take_append_of_le_length (by rw [List.length_drop]; omega)]

theorem top_append (S q : Bytes) (c : Nat) (hc : 0 < c) (h : 8192 * c ≤ S.length) : top (S ++ q) c = top S c := by
  unfold top
  rw [chunk_append S q 0 (by omega)]
  congr 2
  refine List.map_congr_left fun i hi => ?_
  rw [List.mem_range'_1] at hi
  rw [chunk_append S q i (by omega)]

theorem top_succ (S : Bytes) (c : Nat) (hc : 0 < c) : top S (c + 1) = top S c ++ K12.turbo (K12.chunk S c) 0x0b 32 := by
  unfold top
  rw [show c + 1 - 1 = (c - 1) + 1 by omega, List.range'_concat, List.map_append, List.flatten_append, List.append_assoc (_ ++ _)]
  congr 2
  rw [show 1 + 1 * (c - 1) = c by omega]
  simp

/-- The object has been given `m` since the last Reset, and `o` bytes before it. -/
structure Rep (c : Bytes) (hs : Int) (d : Digest) (o : Nat) (m : Bytes) : Prop where
  cs : d.customString = c
  hs : d.hashSize = hs
  ab : d.squeezing = false
  le : d.currentWritten ≤ 8192
  one : d.numChunk = 0 → d.currentWritten = o + m.length ∧ (∃ ds, SpRep d.state ds m) ∧ SpRep d.currentChunk 0x0b []
  many : 0 < d.numChunk → o = 0 ∧ d.numChunk * 8192 + d.currentWritten = m.length ∧ (∃ ds, SpRep d.state ds (top m d.numChunk)) ∧
    SpRep d.currentChunk 0x0b (m.drop (8192 * d.numChunk))

theorem init_rep (c : Bytes) (hs : Int) : Rep c hs (newDigest c hs) 0 [] :=
  ⟨rfl, rfl, rfl, Nat.zero_le _, fun _ => ⟨rfl, ⟨_, SpRep.nil _ rfl⟩, SpRep.nil ⟨List.replicate 25 0, 0x0b, 0, 0, zeros 168, false⟩ rfl⟩, fun h => absurd h (Nat.lt_irrefl 0)⟩

theorem permute_ds (d : Sponge) : d.permute.dsbyte = d.dsbyte := by unfold Sponge.permute; split <;> rfl
theorem readLoop_ds : ∀ fuel (d : Sponge) (want : Nat) (acc : Bytes), (Sponge.readLoop fuel d want acc).1.dsbyte = d.dsbyte := by
  intro fuel
  induction fuel with
  | zero => intros; rfl
  | succ fuel ih =>
    intro d want acc
    unfold Sponge.readLoop
    split
    · rfl
    · dsimp only
      rw [ih]
      split
      · rw [permute_ds]
      · rfl
theorem read_ds (d : Sponge) (want : Nat) : (d.read want).1.dsbyte = d.dsbyte := by
  unfold Sponge.read
  dsimp only
  rw [readLoop_ds]
  split
  · rfl
  · unfold Sponge.padAndPermute
    dsimp only
    rw [permute_ds]

/-- Closing a full chunk. -/
theorem next_rep {c : Bytes} {hs : Int} {d : Digest} {o : Nat} {m : Bytes} (h : Rep c hs d o m) (ho : o = 0 ∨ d.currentWritten < 8192) :
    Rep c hs d.nextChunk o m ∧ d.nextChunk.currentWritten < 8192 ∧ (d.currentWritten < 8192 → d.nextChunk = d) := by
  have hle := h.le
  unfold Digest.nextChunk
  by_cases hw : d.currentWritten = 8192
  case neg => rw [if_neg hw]; exact ⟨h, by omega, fun _ => rfl⟩
  rw [if_pos hw]
  have ho : o = 0 := by omega
  subst ho
  by_cases hn : d.numChunk = 0
  · rw [if_pos hn]
    obtain ⟨h1, ⟨ds, h2⟩, h3⟩ := h.one hn
    refine ⟨⟨h.cs, h.hs, h.ab, Nat.zero_le _, fun hc => ?_, fun _ => ⟨rfl, ?_, ?_, ?_⟩⟩, Nat.zero_lt_succ _, fun hc => by omega⟩
    · have : d.numChunk + 1 = 0 := hc
      omega
    · show (d.numChunk + 1) * 8192 + 0 = _; omega
    · refine ⟨ds, ?_⟩
      show SpRep (d.state.write [3, 0, 0, 0, 0, 0, 0, 0]).1 ds (top m (d.numChunk + 1))
      have e : top m (d.numChunk + 1) = m ++ [3, 0, 0, 0, 0, 0, 0, 0] := by
        rw [hn]
        unfold top K12.chunk
        rw [show 8192 * 0 = 0 from rfl, List.drop_zero, List.take_of_length_le (by omega)]
        exact List.append_nil _
      rw [e]
      exact (h2.write _).2
    · show SpRep d.currentChunk 0x0b (m.drop (8192 * (d.numChunk + 1)))
      rw [List.drop_of_length_le (by omega)]; exact h3
  · rw [if_neg hn]
    obtain ⟨_, h1, ⟨ds, h2⟩, h3⟩ := h.many (by omega)
    have hrd := h3.read 32
    dsimp only
    have hlen : (d.numChunk + 1) * 8192 + 0 = m.length := by rw [← h1, hw, Nat.add_mul, Nat.one_mul, Nat.add_zero]
    have hch : K12.chunk m d.numChunk = m.drop (8192 * d.numChunk) := by
      unfold K12.chunk; rw [List.take_of_length_le (by rw [List.length_drop]; omega)]
    rw [← hch] at hrd
    refine ⟨⟨h.cs, h.hs, h.ab, Nat.zero_le _, fun hc => ?_, fun _ => ⟨rfl, ?_, ⟨ds, ?_⟩, ?_⟩⟩, Nat.zero_lt_succ _, fun hc => by omega⟩
    · have : d.numChunk + 1 = 0 := hc
      omega
    · exact hlen
    · show SpRep (d.state.write (d.currentChunk.read 32).2).1 ds (top m (d.numChunk + 1))
      rw [hrd.1, top_succ _ _ (by omega)]
      exact (h2.write _).2
    · show SpRep (d.currentChunk.read 32).1.reset 0x0b (m.drop (8192 * (d.numChunk + 1)))
      rw [List.drop_of_length_le (by omega)]
      have hal : (d.currentChunk.read 32).1.a.length = 25 := by rw [hrd.2.a]; exact iter_length _ _ hrd.2.len
      have e : (d.currentChunk.read 32).1.dsbyte = 0x0b := by
        rw [read_ds]; exact h3.ds
      rw [← e]
      exact SpRep.nil _ (by rw [hrd.2.st]; exact outer_length _ hal)

theorem absorb_rep {c : Bytes} {hs : Int} {d : Digest} {o : Nat} {m : Bytes} (h : Rep c hs d o m) (q : Bytes) (hq : d.currentWritten + q.length ≤ 8192) :
    Rep c hs (d.absorb q) o (m ++ q) ∧ (d.absorb q).currentWritten = d.currentWritten + q.length ∧ (d.absorb q).numChunk = d.numChunk := by
  unfold Digest.absorb
  by_cases hn : d.numChunk = 0
  · rw [if_pos hn]
    obtain ⟨h1, ⟨ds, h2⟩, h3⟩ := h.one hn
    have hw := h2.write q
    dsimp only
    rw [hw.1]
    refine ⟨⟨h.cs, h.hs, h.ab, hq, fun _ => ⟨?_, ⟨ds, hw.2⟩, h3⟩, fun hc => ?_⟩, rfl, rfl⟩
    · show d.currentWritten + q.length = _; rw [List.length_append]; omega
    · have : 0 < d.numChunk := hc
      omega
  · rw [if_neg hn]
    obtain ⟨h0, h1, ⟨ds, h2⟩, h3⟩ := h.many (by omega)
    have hw := h3.write q
    dsimp only
    rw [hw.1]
    refine ⟨⟨h.cs, h.hs, h.ab, hq, fun hc => absurd hc hn, fun _ => ⟨h0, ?_, ⟨ds, ?_⟩, ?_⟩⟩, rfl, rfl⟩
    · show d.numChunk * 8192 + (d.currentWritten + q.length) = _; rw [List.length_append]; omega
    · show SpRep d.state ds (top (m ++ q) d.numChunk)
      rw [top_append _ _ _ (by omega) (by omega)]; exact h2
    · show SpRep (d.currentChunk.write q).1 0x0b ((m ++ q).drop (8192 * d.numChunk))
      rw [List.drop_append_of_le_length (by omega)]; exact hw.2

theorem writeLoop_rep {c : Bytes} {hs : Int} (o : Nat) : ∀ fuel (d : Digest) (m p : Bytes), Rep c hs d o m → (o = 0 ∨ d.currentWritten + p.length ≤ 8192) → p.length ≤ fuel →
    Rep c hs (Digest.writeLoop fuel d p) o (m ++ p) ∧ (p ≠ [] → 0 < (Digest.writeLoop fuel d p).currentWritten) := by
  intro fuel
  induction fuel with
  | zero =>
    intro d m p h _ hp
    have : p = [] := List.eq_nil_of_length_eq_zero (by omega)
    rw [this, List.append_nil]; exact ⟨h, fun h => absurd rfl h⟩
  | succ fuel ih =>
    intro d m p h ho hp
    unfold Digest.writeLoop
    by_cases h0 : p.length = 0
    · have : p = [] := List.eq_nil_of_length_eq_zero h0
      rw [if_pos h0, this, List.append_nil]; exact ⟨h, fun h => absurd rfl h⟩
    rw [if_neg h0]
    dsimp only
    obtain ⟨hn, hlt, hsame⟩ := next_rep h (by omega)
    generalize hdn : d.nextChunk = e at *
    have hxe : (if 8192 - e.currentWritten > p.length then p.length else 8192 - e.currentWritten) = min p.length (8192 - e.currentWritten) := by
      split <;> omega
    rw [hxe]
    have hk1 : min p.length (8192 - e.currentWritten) ≤ p.length := Nat.min_le_left ..
    have hk2 : min p.length (8192 - e.currentWritten) ≤ 8192 - e.currentWritten := Nat.min_le_right ..
    have hk3 : 0 < min p.length (8192 - e.currentWritten) := by omega
    have hk4 : o = 0 ∨ min p.length (8192 - e.currentWritten) = p.length := by
      rcases ho with ho | ho
      · exact Or.inl ho
      · have := hsame (by omega); subst this; right; omega
    have hk5 : o = 0 ∨ e.currentWritten + p.length ≤ 8192 := by
      rcases ho with ho | ho
      · exact Or.inl ho
      · have := hsame (by omega); subst this; right; omega
    generalize min p.length (8192 - e.currentWritten) = k at *
    have htl : (p.take k).length = k := by rw [List.length_take]; omega
    obtain ⟨ha, hb, _⟩ := absorb_rep hn (p.take k) (by omega)
    have := ih _ _ (p.drop k) ha (by rw [List.length_drop, hb, htl]; omega) (by rw [List.length_drop]; omega)
    rw [List.append_assoc, List.take_append_drop] at this
    refine ⟨this.1, fun _ => ?_⟩
    by_cases hd : p.drop k = []
    · rw [hd]
      cases fuel with
      | zero => unfold Digest.writeLoop; omega
      | succ f => unfold Digest.writeLoop; rw [if_pos (show ([] : Bytes).length = 0 from rfl)]; omega
    · exact this.2 hd

theorem write_rep {c : Bytes} {hs : Int} {d : Digest} {o : Nat} {m : Bytes} (h : Rep c hs d o m) (p : Bytes) (ho : o = 0 ∨ d.currentWritten + p.length ≤ 8192) :
    (d.write p).2 = p.length ∧ Rep c hs (d.write p).1 o (m ++ p) ∧ (p ≠ [] → 0 < (d.write p).1.currentWritten) := by
  unfold Digest.write
  rw [h.ab, if_neg (by decide)]
  exact ⟨rfl, writeLoop_rep o _ _ _ _ h ho (Nat.le_refl _)⟩

theorem SpRep.setDs {d : Sponge} {ds : Byte} {m : Bytes} (h : SpRep d ds m) (e : Byte) : SpRep { d with dsbyte := e } e m :=
  ⟨h.a, rfl, h.i, h.n, h.sl, h.held, h.ab⟩

/-- The message with the customisation string. -/
def full (m c : Bytes) : Bytes := m ++ c ++ K12.lengthEncode c.length
/-- What the main sponge absorbs in the end. -/
def last (S : Bytes) : Bytes × Byte := if S.length ≤ 8192 then (S, 0x07) else (K12.final S, 0x06)

theorem kt_eq (m c : Bytes) (L : Nat) : K12.kt m c L = K12.turbo (last (full m c)).1 (last (full m c)).2 L := by
  unfold K12.kt last full
  dsimp only
  split <;> rfl

theorem finish_rep {c : Bytes} {hs : Int} {d : Digest} {o : Nat} {m : Bytes} (h : Rep c hs d o m) (hc : c.length < 2 ^ 64) (hm : (full m c).length < 2 ^ 70)
    (ho : o = 0 ∨ o + (full m c).length ≤ 8192) :
    d.finish.squeezing = true ∧ SpRep d.finish.state (last (full m c)).2 (last (full m c)).1 := by
  have hfl : (full m c).length = m.length + c.length + (K12.lengthEncode c.length).length := by
    unfold full; rw [List.length_append, List.length_append]
  have hel := lengthEncode_length c.length hc
  have hw : ∀ e : Digest, ∀ m', Rep c hs e o m' → m'.length ≤ (full m c).length → o = 0 ∨ e.currentWritten = o + m'.length := by
    intro e m' he hl
    rcases ho with ho | ho
    · exact Or.inl ho
    by_cases hn : e.numChunk = 0
    · exact Or.inr (he.one hn).1
    · exact Or.inl (he.many (by omega)).1
  have w1 := write_rep h c (by have := hw d m h (by omega); omega)
  have hw1 := hw _ _ w1.2.1 (by rw [List.length_append]; omega)
  have w2 := write_rep w1.2.1 (K12.lengthEncode c.length) (by rw [List.length_append] at hw1; omega)
  have hne : K12.lengthEncode c.length ≠ [] := fun h => by rw [h] at hel; exact absurd hel.1 (by decide)
  have hpos := w2.2.2 hne
  have hr := w2.2.1
  rw [show m ++ c ++ K12.lengthEncode c.length = full m c from rfl] at hr
  unfold Digest.finish
  dsimp only
  rw [h.cs, w1.2.1.cs, rightEncode_eq _ hc]
  generalize ((d.write c).1.write (K12.lengthEncode c.length)).1 = e at *
  generalize full m c = S at *
  have hle := hr.le
  by_cases hn : e.numChunk = 0
  · rw [if_pos hn]
    obtain ⟨h1, ⟨ds, h2⟩, h3⟩ := hr.one hn
    have hS : S.length ≤ 8192 := by omega
    refine ⟨rfl, ?_⟩
    unfold last
    rw [if_pos hS]
    exact h2.setDs 0x07
  · rw [if_neg hn]
    obtain ⟨h0, h1, ⟨ds, h2⟩, h3⟩ := hr.many (by omega)
    have hS : ¬ S.length ≤ 8192 := by omega
    have hrd := h3.read 32
    refine ⟨rfl, ?_⟩
    unfold last
    rw [if_neg hS]
    show SpRep { (((e.state.write (e.currentChunk.read 32).2).1.write (rightEncode (BitVec.ofNat 64 e.numChunk))).1.write [0xff, 0xff]).1 with dsbyte := 0x06 } 0x06 (K12.final S)
    rw [hrd.1, rightEncode_eq _ (by omega)]
    have hch : K12.chunk S e.numChunk = S.drop (8192 * e.numChunk) := by
      unfold K12.chunk; rw [List.take_of_length_le (by rw [List.length_drop]; omega)]
    have hnc : K12.nChunks S - 1 = e.numChunk := by unfold K12.nChunks; omega
    have e1 : K12.final S = top S (e.numChunk + 1) ++ K12.lengthEncode e.numChunk ++ [0xff, 0xff] := by
      unfold K12.final top
      rw [hnc, Nat.add_sub_cancel]
    rw [e1, top_succ _ _ (by omega), hch]
    exact ((((h2.write _).2).write _).2.write _).2.setDs 0x06

theorem read_rep {c : Bytes} {hs : Int} {d : Digest} {o : Nat} {m : Bytes} (h : Rep c hs d o m) (hc : c.length < 2 ^ 64) (hm : (full m c).length < 2 ^ 70)
    (ho : o = 0 ∨ o + (full m c).length ≤ 8192) (L : Nat) :
    (d.read L).2 = K12.kt m c L ∧ (d.read L).1.squeezing = true ∧ SqRep (d.read L).1.state (K12.sponge (last (full m c)).1 (last (full m c)).2) L := by
  have hf := finish_rep h hc hm ho
  have hr := hf.2.read L
  unfold Digest.read
  rw [h.ab, if_neg (by decide), kt_eq]
  exact ⟨hr.1, hf.1, hr.2⟩

theorem reset_rep {c : Bytes} {hs : Int} {d : Digest} {o : Nat} {m : Bytes} (h : Rep c hs d o m) (hp : 0 < d.numChunk → 0 < d.currentWritten) (hl : o + m.length ≤ 8192) :
    Rep c hs d.reset (o + m.length) [] ∧ d.reset.numChunk = 0 := by
  have hn : d.numChunk = 0 := by
    by_cases hn : d.numChunk = 0
    · exact hn
    · have h1 := h.many (by omega)
      have h2 := hp (by omega)
      omega
  obtain ⟨h1, ⟨ds, h2⟩, h3⟩ := h.one hn
  refine ⟨⟨h.cs, h.hs, rfl, h.le, fun _ => ⟨h1, ⟨_, SpRep.nil _ h2.sl⟩, ?_⟩, fun hc => ?_⟩, hn⟩
  · have := SpRep.nil d.currentChunk h3.sl
    rw [h3.ds] at this; exact this
  · have : 0 < d.numChunk := hc
    omega

end Verif.K12
