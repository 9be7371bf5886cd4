import Verif.Spec.K12
import Verif.Model.K12
import Verif.Lemmas.Keccak
import Verif.SetLoop
import Verif.Words
/-
The sponge of package k12 is TurboSHAKE128.
-/
namespace Verif.K12
open Verif.Keccak
open Verif.Spec

theorem xorIn_eq (a : List U64) (ha : a.length = 25) (buf : Bytes) (hb : buf.length = 168) :
    xorIn a buf = (List.range 25).map fun i => if i < 21 then a.getD i 0 ^^^ getLE64 buf (8 * i) else a.getD i 0 := by
  unfold xorIn
  rw [hb, show 168 / 8 = 21 from rfl]
  have key := forLoop_inv (a := 0) (b := 21) (s := a) (body := fun (a : List U64) i => a.set i (a.getD i 0 ^^^ getLE64 buf (8 * i)))
    (fun k e => e.length = 25 ∧ ∀ j, e.getD j 0 = if j < k then a.getD j 0 ^^^ getLE64 buf (8 * j) else a.getD j 0) (by omega)
    ⟨ha, fun j => by rw [if_neg (by omega)]⟩ ?_
  · refine List.ext_getElem (by rw [key.1, List.length_map, List.length_range]) fun j h1 h2 => ?_
    have := key.2 j
    rw [List.getD_eq_getElem?_getD, List.getElem?_eq_getElem h1, Option.getD_some] at this
    rw [this, List.getElem_map, List.getElem_range]
  · rintro k e _ hk ⟨h1, h2⟩
    refine ⟨by rw [List.length_set, h1], fun j => ?_⟩
    rw [List.getD_eq_getElem?_getD, List.getElem?_set]
    by_cases hc : k = j
    · subst hc
      rw [if_pos rfl, if_pos (by omega), Option.getD_some, h2 k, if_neg (by omega), if_pos (by omega)]
    · rw [if_neg hc, ← List.getD_eq_getElem?_getD, h2 j]
      by_cases hj : j < k
      · rw [if_pos hj, if_pos (by omega)]
      · rw [if_neg hj, if_neg (by omega)]

theorem absorb_eq (a : List U64) (ha : a.length = 25) (buf : Bytes) (hb : buf.length = 168) :
    keccakF1600 12 (xorIn a buf) = K12.absorb a buf := by
  rw [xorIn_eq a ha buf hb, keccakF_eq _ (by rw [List.length_map, List.length_range])]; rfl

theorem absorb_length (A : List U64) (b : Bytes) : (K12.absorb A b).length = 25 := p_length _ (by rw [List.length_map, List.length_range])

theorem fold_length (bs : List Bytes) (A : List U64) (h : A.length = 25) : (bs.foldl K12.absorb A).length = 25 := by
  induction bs generalizing A with
  | nil => exact h
  | cons b bs ih => exact ih _ (absorb_length _ _)

theorem outer_length (A : List U64) (h : A.length = 25) : (K12.outer A).length = 168 := by
  unfold K12.outer
  rw [map_le64_length, List.length_take, h]; rfl

/-- The sponge has absorbed `m`. -/
structure SpRep (d : Sponge) (ds : Byte) (m : Bytes) : Prop where
  a : d.a = (fullBlocks 168 m).foldl K12.absorb (List.replicate 25 0#64)
  ds : d.dsbyte = ds
  i : d.i = 0
  n : d.n = m.length % 168
  sl : d.storage.length = 168
  held : d.storage.take d.n = restBlock 168 m
  ab : d.squeezing = false

theorem SpRep.alen {d : Sponge} {ds : Byte} {m : Bytes} (h : SpRep d ds m) : d.a.length = 25 := by
  rw [h.a]; exact fold_length _ _ (List.length_replicate ..)

theorem SpRep.nil (d : Sponge) (h : d.storage.length = 168) : SpRep d.reset d.dsbyte [] :=
  ⟨rfl, rfl, rfl, rfl, h, rfl, rfl⟩

theorem fullBlocks_rest (m p : Bytes) (B : Nat) (hB : 0 < B) : fullBlocks B (m ++ p) = fullBlocks B m ++ fullBlocks B (restBlock B m ++ p) ∧
    restBlock B (m ++ p) = restBlock B (restBlock B m ++ p) := by
  have hfl : (fullBlocks B m).flatten ++ restBlock B m = m := fullBlocks_flatten_append_rest B m
  have hfm : (fullBlocks B m).flatten.length % B = 0 := by
    have := congrArg List.length hfl
    rw [List.length_append, restBlock_length] at this
    have h2 := Nat.mod_add_div m.length B
    have : (fullBlocks B m).flatten.length = B * (m.length / B) := by omega
    rw [this]; exact Nat.mul_mod_right ..
  have e : fullBlocks B m = fullBlocks B (fullBlocks B m).flatten := by
    conv => lhs; rw [← hfl, fullBlocks_append _ _ _ hB hfm, fullBlocks_lt B (restBlock B m) (by rw [restBlock_length]; exact Nat.mod_lt _ hB), List.append_nil]
  constructor
  · conv => lhs; rw [← hfl, List.append_assoc, fullBlocks_append _ _ _ hB hfm, ← e]
  · conv => lhs; rw [← hfl, List.append_assoc, restBlock_append _ _ _ hB hfm]

/-- The block that is full when `p` has been added to the bytes held. -/
theorem SpRep.fill {d : Sponge} {ds : Byte} {m : Bytes} (h : SpRep d ds m) (p : Bytes) (hp : d.n + p.length = 168) :
    SpRep (Sponge.permute { d with storage := goCopy d.storage d.n p, n := d.n + p.length }) ds (m ++ p) := by
  have hs := h.sl
  have hg : goCopy d.storage d.n p = restBlock 168 m ++ p := by
    rw [goCopy_full _ _ _ (by omega) (by omega), h.held, List.take_of_length_le (by omega)]
  have hl : (restBlock 168 m ++ p).length = 168 := by rw [List.length_append, restBlock_length, ← h.n]; exact hp
  obtain ⟨e1, e2⟩ := fullBlocks_rest m p 168 (by omega)
  have hn := h.n
  have hsq : ({ d with storage := goCopy d.storage d.n p, n := d.n + p.length } : Sponge).squeezing = false := h.ab
  unfold Sponge.permute
  rw [hsq]
  rw [if_neg (by decide)]
  refine ⟨?_, h.ds, h.i, ?_, ?_, ?_, rfl⟩
  · show keccakF1600 12 (xorIn d.a ((goCopy d.storage d.n p).take 168)) = _
    rw [hg, List.take_of_length_le (Nat.le_of_eq hl), absorb_eq _ h.alen _ hl, e1, fullBlocks_one 168 _ (by omega) hl, List.foldl_append, ← h.a, List.foldl_cons, List.foldl_nil]
  · show 0 = _; rw [List.length_append]; omega
  · show (goCopy d.storage d.n p).length = 168; rw [hg]; exact hl
  · show List.take 0 _ = _
    symm; rw [e2]; apply List.eq_nil_of_length_eq_zero; rw [restBlock_length, hl]

theorem SpRep.writeLoop (ds : Byte) : ∀ fuel (d : Sponge) (m p : Bytes), SpRep d ds m → p.length ≤ fuel → SpRep (Sponge.writeLoop fuel d p) ds (m ++ p) := by
  intro fuel
  induction fuel with
  | zero =>
    intro d m p h hp
    have : p = [] := List.eq_nil_of_length_eq_zero (by omega)
    rw [this, List.append_nil]; exact h
  | succ fuel ih =>
    intro d m p h hp
    have hnlt : d.n < 168 := by rw [h.n]; exact Nat.mod_lt _ (by omega)
    have hs := h.sl
    unfold Sponge.writeLoop
    by_cases h0 : p.length = 0
    · rw [if_pos h0, List.eq_nil_of_length_eq_zero h0, List.append_nil]; exact h
    rw [if_neg h0]
    by_cases hf : d.n = 0 ∧ 168 ≤ p.length
    · rw [if_pos hf]
      have htl : (p.take 168).length = 168 := by rw [List.length_take]; omega
      have hm : m.length % 168 = 0 := by rw [← h.n]; exact hf.1
      have := ih { d with a := keccakF1600 12 (xorIn d.a (p.take 168)) } (m ++ p.take 168) (p.drop 168) ?_ (by rw [List.length_drop]; omega)
      · rw [List.append_assoc, List.take_append_drop] at this; exact this
      · refine ⟨?_, h.ds, h.i, ?_, h.sl, ?_, h.ab⟩
        · show keccakF1600 12 (xorIn d.a (p.take 168)) = _
          rw [absorb_eq _ h.alen _ htl, fullBlocks_append _ _ _ (by omega) hm, fullBlocks_one 168 _ (by omega) htl, List.foldl_append, ← h.a, List.foldl_cons, List.foldl_nil]
        · show d.n = _; rw [List.length_append, htl]; omega
        · show d.storage.take d.n = _
          rw [hf.1]; symm
          apply List.eq_nil_of_length_eq_zero; rw [restBlock_length, List.length_append, htl]; omega
    · rw [if_neg hf]
      dsimp only
      have hle : min (168 - d.n) p.length ≤ p.length := Nat.min_le_right ..
      have hle2 : min (168 - d.n) p.length ≤ 168 - d.n := Nat.min_le_left ..
      have hpos : 0 < min (168 - d.n) p.length := by omega
      generalize hk : min (168 - d.n) p.length = k at *
      have htl : (p.take k).length = k := by rw [List.length_take]; omega
      have := ih (if d.n + k = 168 then Sponge.permute { d with storage := goCopy d.storage d.n (p.take k), n := d.n + k }
        else { d with storage := goCopy d.storage d.n (p.take k), n := d.n + k }) (m ++ p.take k) (p.drop k) ?_ (by rw [List.length_drop]; omega)
      · rw [List.append_assoc, List.take_append_drop] at this; exact this
      · by_cases hc : d.n + k = 168
        · rw [if_pos hc]
          have := h.fill (p.take k) (by omega)
          rw [htl] at this; exact this
        · rw [if_neg hc]
          have hl : (restBlock 168 m ++ p.take k).length < 168 := by rw [List.length_append, restBlock_length, ← h.n]; omega
          obtain ⟨e1, e2⟩ := fullBlocks_rest m (p.take k) 168 (by omega)
          have hn := h.n
          refine ⟨?_, h.ds, h.i, ?_, ?_, ?_, h.ab⟩
          · show d.a = _; rw [e1, fullBlocks_lt _ _ hl, List.append_nil]; exact h.a
          · show d.n + k = _; rw [List.length_append, htl]; omega
          · show (goCopy d.storage d.n (p.take k)).length = 168; rw [goCopy_length _ _ _ (by omega)]; exact hs
          · show (goCopy d.storage d.n (p.take k)).take (d.n + k) = _
            have := goCopy_take d.storage d.n (p.take k) (by omega)
            rw [htl] at this
            rw [this, e2, restBlock_lt _ _ hl, h.held]

theorem SpRep.write {d : Sponge} {ds : Byte} {m : Bytes} (h : SpRep d ds m) (p : Bytes) :
    (d.write p).2 = p.length ∧ SpRep (d.write p).1 ds (m ++ p) := by
  unfold Sponge.write
  rw [h.ab, if_neg (by decide)]
  exact ⟨rfl, SpRep.writeLoop ds _ _ _ _ h (Nat.le_refl _)⟩

/-! ### Squeezing -/

theorem iter_succ (j : Nat) (A : List U64) : K12.iter (j + 1) A = Spec.Keccak.p 12 (K12.iter j A) := by
  induction j generalizing A with
  | zero => rfl
  | succ j ih => exact ih (Spec.Keccak.p 12 A)
theorem iter_length (j : Nat) (A : List U64) (h : A.length = 25) : (K12.iter j A).length = 25 := by
  induction j generalizing A with
  | zero => exact h
  | succ j ih => exact ih _ (p_length A h)

/-- The sponge is at position `pos` of the stream from `A`. -/
structure SqRep (d : Sponge) (A : List U64) (pos : Nat) : Prop where
  len : A.length = 25
  a : d.a = K12.iter (pos / 168) A
  i : d.i = pos % 168
  n : d.n = 168
  st : d.storage = K12.outer d.a
  sq : d.squeezing = true

theorem SqRep.readLoop (A : List U64) : ∀ fuel (d : Sponge) (pos want : Nat) (acc : Bytes), SqRep d A pos → want < fuel →
    (Sponge.readLoop fuel d want acc).2 = acc ++ (List.range want).map (fun j => K12.streamAt A (pos + j)) ∧ SqRep (Sponge.readLoop fuel d want acc).1 A (pos + want) := by
  intro fuel
  induction fuel with
  | zero => intro d pos want acc _ h; omega
  | succ fuel ih =>
    intro d pos want acc h hf
    unfold Sponge.readLoop
    by_cases h0 : want = 0
    · rw [if_pos h0, h0]; exact ⟨(List.append_nil _).symm, h⟩
    rw [if_neg h0]
    have hil : d.i < 168 := by rw [h.i]; exact Nat.mod_lt _ (by omega)
    have hal : d.a.length = 25 := by rw [h.a]; exact iter_length _ _ h.len
    have hsl : d.storage.length = 168 := by rw [h.st]; exact outer_length _ hal
    have hn := h.n
    have hi := h.i
    dsimp only
    have hpos : 0 < min want (d.n - d.i) := by omega
    have hle : min want (d.n - d.i) ≤ want := Nat.min_le_left ..
    have hle2 : min want (d.n - d.i) ≤ d.n - d.i := Nat.min_le_right ..
    generalize hk : min want (d.n - d.i) = k at *
    have hout : (d.storage.drop d.i).take k = (List.range k).map (fun j => K12.streamAt A (pos + j)) := by
      refine ext_at8 (by rw [List.length_take, List.length_drop, List.length_map, List.length_range]; omega) fun j hj => ?_
      rw [List.length_take, List.length_drop] at hj
      have hjk : j < k := by omega
      have er : at8 ((List.range k).map (fun j => K12.streamAt A (pos + j))) j = K12.streamAt A (pos + j) := by
        unfold at8
        rw [List.getD_eq_getElem?_getD, List.getElem?_map, List.getElem?_range hjk]; rfl
      rw [er, at8_take hjk, at8_drop]
      unfold K12.streamAt
      have e1 : (pos + j) / 168 = pos / 168 := by omega
      have e2 : (pos + j) % 168 = d.i + j := by omega
      rw [e1, e2, h.st, h.a]
    rw [hout]
    have hsplit : (List.range want).map (fun j => K12.streamAt A (pos + j)) =
        (List.range k).map (fun j => K12.streamAt A (pos + j)) ++ (List.range (want - k)).map (fun j => K12.streamAt A (pos + k + j)) := by
      have e : List.range want = List.range k ++ (List.range (want - k)).map (k + ·) := by
        rw [← List.range_add, show k + (want - k) = want by omega]
      rw [e, List.map_append, List.map_map]
      refine congrArg _ (List.map_congr_left fun j _ => ?_)
      show K12.streamAt A (pos + (k + j)) = _
      rw [Nat.add_assoc]
    have hstep : SqRep (if d.i + k = 168 then Sponge.permute { d with i := d.i + k } else { d with i := d.i + k }) A (pos + k) := by
      by_cases hc : d.i + k = 168
      · rw [if_pos hc]
        unfold Sponge.permute
        have hsq : ({ d with i := d.i + k } : Sponge).squeezing = true := h.sq
        rw [hsq, if_pos rfl]
        refine ⟨h.len, ?_, ?_, h.n, rfl, rfl⟩
        · show keccakF1600 12 d.a = _
          rw [keccakF_eq _ hal, h.a, ← iter_succ]
          congr 1; omega
        · show 0 = _; omega
      · rw [if_neg hc]
        refine ⟨h.len, ?_, ?_, h.n, h.st, h.sq⟩
        · show d.a = _; rw [h.a]; congr 1; omega
        · show d.i + k = _; omega
    have := ih _ (pos + k) (want - k) (acc ++ (List.range k).map (fun j => K12.streamAt A (pos + j))) hstep (by omega)
    rw [List.append_assoc, ← hsplit, show pos + k + (want - k) = pos + want by omega] at this
    exact this

theorem zeroLoop (n : Nat) (st : Bytes) (hn : n ≤ 168) (hs : st.length = 168) : forLoop n 168 (fun (s : Bytes) j => s.set j 0#8) st = st.take n ++ zeros (168 - n) := by
  have := forLoop_inv (a := n) (b := 168) (s := st) (body := fun (s : Bytes) j => s.set j 0#8)
    (fun j (e : Bytes) => e = st.take n ++ zeros (j - n) ++ st.drop j) hn ?_ ?_
  · rw [this, List.drop_of_length_le (by omega), List.append_nil]
  · rw [Nat.sub_self]; show st = st.take n ++ [] ++ st.drop n; rw [List.append_nil, List.take_append_drop]
  · intro j e h1 h2 he
    rw [he]
    have hl : (st.take n ++ zeros (j - n)).length = j := by rw [List.length_append, List.length_take, zeros_length]; omega
    rw [List.set_append_right _ _ (by omega), hl, Nat.sub_self, ← List.getElem_cons_drop (by omega : j < st.length), List.set_cons_zero,
      show j + 1 - n = (j - n) + 1 by omega]
    have : zeros (j - n + 1) = zeros (j - n) ++ [0#8] := by unfold zeros; rw [← List.replicate_append_replicate]; rfl
    rw [this]
    simp only [List.append_assoc, List.cons_append, List.nil_append]

theorem SpRep.pad {d : Sponge} {ds : Byte} {m : Bytes} (h : SpRep d ds m) : SqRep d.padAndPermute (K12.sponge m ds) 0 := by
  have hnlt : d.n < 168 := by rw [h.n]; exact Nat.mod_lt _ (by omega)
  have hs := h.sl
  have hrl : (restBlock 168 m).length = d.n := by rw [restBlock_length, h.n]
  -- the last block
  have e1 : forLoop (d.n + 1) 168 (fun (s : Bytes) j => s.set j 0#8) (d.storage.set d.n d.dsbyte) = restBlock 168 m ++ [ds] ++ zeros (167 - d.n) := by
    rw [zeroLoop _ _ (by omega) (by rw [List.length_set]; exact hs)]
    rw [show 168 - (d.n + 1) = 167 - d.n by omega]
    congr 1
    rw [List.take_succ_eq_append_getElem (by rw [List.length_set]; omega), List.getElem_set_self, List.take_set_of_le (by omega), h.held, h.ds]
  have hql : (restBlock 168 m ++ [ds] ++ zeros (167 - d.n)).length = 168 := by
    rw [List.length_append, List.length_append, hrl, zeros_length]; simp; omega
  generalize hq : restBlock 168 m ++ [ds] ++ zeros (167 - d.n) = q at *
  -- the padded message
  have hpad : K12.pad m ds = (fullBlocks 168 m).flatten ++ q.set 167 (at8 q 167 ^^^ 0x80#8) := by
    unfold K12.pad
    have e2 : m ++ [ds] ++ zeros (167 - m.length % 168) = (fullBlocks 168 m).flatten ++ q := by
      rw [← hq, ← List.append_assoc, ← List.append_assoc, fullBlocks_flatten_append_rest, h.n]
    dsimp only
    rw [e2]
    have hl2 : ((fullBlocks 168 m).flatten ++ q).length - 1 = (fullBlocks 168 m).flatten.length + 167 := by rw [List.length_append]; omega
    rw [hl2, List.set_append_right _ _ (by omega), at8_append_right _ _ _ (by omega)]
    rw [show (fullBlocks 168 m).flatten.length + 167 - (fullBlocks 168 m).flatten.length = 167 by omega]
  have hfm : (fullBlocks 168 m).flatten.length % 168 = 0 := by
    have := congrArg List.length (fullBlocks_flatten_append_rest 168 m)
    rw [List.length_append, restBlock_length] at this
    omega
  have hfb : fullBlocks 168 (K12.pad m ds) = fullBlocks 168 m ++ [q.set 167 (at8 q 167 ^^^ 0x80#8)] := by
    rw [hpad, fullBlocks_append _ _ _ (by omega) hfm, fullBlocks_one 168 (q.set _ _) (by omega) (by rw [List.length_set]; exact hql)]
    congr 1
    have := (fullBlocks_rest m [] 168 (by omega)).1
    conv => rhs; rw [← fullBlocks_flatten_append_rest 168 m, fullBlocks_append _ _ _ (by omega) hfm, fullBlocks_lt 168 (restBlock 168 m) (by omega), List.append_nil]
  have hsp : keccakF1600 12 (xorIn d.a ((q.set 167 (at8 q 167 ^^^ 0x80#8)).take 168)) = K12.sponge m ds := by
    rw [List.take_of_length_le (by rw [List.length_set]; omega), absorb_eq _ h.alen _ (by rw [List.length_set]; exact hql)]
    unfold K12.sponge
    rw [hfb, List.foldl_append, ← h.a, List.foldl_cons, List.foldl_nil]
  unfold Sponge.padAndPermute
  dsimp only
  rw [e1]
  have hperm : Sponge.permute { d with storage := q.set 167 (at8 q 167 ^^^ 0x80#8), n := 168 } =
      { d with storage := q.set 167 (at8 q 167 ^^^ 0x80#8), n := 0, a := K12.sponge m ds } := by
    unfold Sponge.permute
    have hsq : ({ d with storage := q.set 167 (at8 q 167 ^^^ 0x80#8), n := 168 } : Sponge).squeezing = false := h.ab
    rw [hsq, if_neg (by decide)]
    dsimp only
    rw [hsp]
  rw [hperm]
  refine ⟨?_, rfl, h.i, rfl, rfl, rfl⟩
  rw [← hsp]
  rw [List.take_of_length_le (by rw [List.length_set]; omega), absorb_eq _ h.alen _ (by rw [List.length_set]; exact hql)]
  exact absorb_length _ _

theorem SpRep.read {d : Sponge} {ds : Byte} {m : Bytes} (h : SpRep d ds m) (want : Nat) :
    (d.read want).2 = K12.turbo m ds want ∧ SqRep (d.read want).1 (K12.sponge m ds) want := by
  have := SqRep.readLoop _ (want + 1) d.padAndPermute 0 want [] h.pad (by omega)
  unfold Sponge.read
  rw [h.ab]
  simp only [Nat.zero_add, List.nil_append] at this
  exact this

theorem SqRep.read {d : Sponge} {A : List U64} {pos : Nat} (h : SqRep d A pos) (want : Nat) :
    (d.read want).2 = (List.range want).map (fun j => K12.streamAt A (pos + j)) ∧ SqRep (d.read want).1 A (pos + want) := by
  have := SqRep.readLoop _ (want + 1) d pos want [] h (by omega)
  unfold Sponge.read
  rw [h.sq]
  simp only [List.nil_append] at this
  exact this

end Verif.K12
