import Verif.Lemmas.BLAKE3Stack
/-
`Write` and `Sum` of package blake3, for messages below 256 chunks.
-/
namespace Verif.BLAKE3
open Verif.Spec

theorem strict_ge {j : Nat} {l : List Nat} (h : Strict l) (hd : 2 ^ j ∣ sum2 l) : ∀ x ∈ l, j ≤ x := by
  cases l with
  | nil => simp
  | cons e l =>
    have he : j ≤ e := by
      apply Nat.le_of_not_lt
      intro hlt
      have h1 : 2 ^ (e + 1) ∣ 2 ^ e + sum2 l := Nat.dvd_trans (Nat.pow_dvd_pow 2 hlt) hd
      have h2 : 2 ^ (e + 1) ∣ 2 ^ e := (Nat.dvd_add_iff_left (sum2_dvd fun x hx => h.1 x hx)).mpr h1
      have h3 := Nat.le_of_dvd (Nat.two_pow_pos e) h2
      have := Nat.two_pow_pos e
      rw [Nat.pow_succ] at h3
      omega
    intro x hx
    rcases List.mem_cons.mp hx with rfl | hx
    · exact he
    · have := h.1 x hx; omega

/-- Between chunks: the stack, and no pending bytes. -/
structure LRepr (key : List U32) (fl : Byte) (hs : Nat) (d : Digest) (l : List Seg) : Prop where
  stk : Stk key fl d l
  chunk : CRepr key fl (sum2 (exps l)) d.chunk []
  near : Near (exps l)
  size : d.hs = hs

theorem subtree_chunks_eq (c n : Nat) (hn : n < 2 ^ 60) : BitVec.ofNat 64 c + BitVec.ofNat 64 n / 1024#64 = BitVec.ofNat 64 (c + n / 1024) := by
  have : BitVec.ofNat 64 n / 1024#64 = BitVec.ofNat 64 (n / 1024) := by
    apply BitVec.eq_of_toNat_eq
    rw [BitVec.toNat_udiv, BitVec.toNat_ofNat, BitVec.toNat_ofNat, BitVec.toNat_ofNat, show 1024 % 2 ^ 64 = 1024 from rfl,
      Nat.mod_eq_of_lt (by omega), Nat.mod_eq_of_lt (by omega)]
  rw [this, BitVec.ofNat_add]

theorem subtree_half_eq (c n : Nat) (hn : n < 2 ^ 60) : BitVec.ofNat 64 c + BitVec.ofNat 64 n / 1024#64 / 2 = BitVec.ofNat 64 (c + n / 1024 / 2) := by
  have : BitVec.ofNat 64 n / 1024#64 / 2 = BitVec.ofNat 64 (n / 1024 / 2) := by
    apply BitVec.eq_of_toNat_eq
    rw [BitVec.toNat_udiv, BitVec.toNat_udiv, BitVec.toNat_ofNat, BitVec.toNat_ofNat, BitVec.toNat_ofNat, show 1024 % 2 ^ 64 = 1024 from rfl,
      show (2 : BitVec 64).toNat = 2 from rfl, Nat.mod_eq_of_lt (by omega), Nat.mod_eq_of_lt (by omega)]
  rw [this, BitVec.ofNat_add]

/-- A state that only moves the chunk counter forward. -/
theorem Stk.counter {key : List U32} {fl : Byte} {d : Digest} {l : List Seg} (h : Stk key fl d l) (c : U64) :
    Stk key fl { d with chunk := { d.chunk with chunk_counter := c } } l :=
  ⟨h.dkey, h.dfl, h.len, h.total, h.pre, h.sized⟩

theorem CRepr.counter {key : List U32} {fl : Byte} {t t' : Nat} {cs : ChunkState} (h : CRepr key fl t cs []) :
    CRepr key fl t' { cs with chunk_counter := BitVec.ofNat 64 t' } [] :=
  CRepr.fresh _ _ _ _ h.core.cv rfl h.buf h.len h.core.blocks h.core.flags

theorem subtreeLen_eq {key : List U32} {fl : Byte} {hs : Nat} {d : Digest} {l : List Seg} (h : LRepr key fl hs d l) (input : Bytes)
    (hi : 1024 < input.length) (hN : (flat l ++ input).length < 256 * 1024) :
    ∃ j, d.subtreeLen input = 1024 * 2 ^ j ∧ 1024 * 2 ^ j ≤ input.length ∧ 2 ^ j ∣ sum2 (exps l) := by
  have hfl := flat_length h.stk.sized
  rw [List.length_append, hfl] at hN
  have hc : (d.chunk.chunk_counter * 1024#64).toNat = sum2 (exps l) * 2 ^ 10 := by
    rw [h.chunk.core.ctr, BitVec.toNat_mul]
    simp only [BitVec.toNat_ofNat]
    omega
  have ha := Nat.log2_self_le (show input.length ≠ 0 by omega)
  have ha2 := Nat.lt_log2_self (n := input.length)
  have h10 : 10 ≤ Nat.log2 input.length := by
    apply Nat.le_of_not_lt
    intro hlt
    have : 2 ^ (Nat.log2 input.length + 1) ≤ 2 ^ 10 := Nat.pow_le_pow_right (by decide) hlt
    omega
  have h18 : Nat.log2 input.length ≤ 64 + 10 := by
    apply Nat.le_of_not_lt
    intro hlt
    have : 2 ^ 20 ≤ 2 ^ (Nat.log2 input.length) := Nat.pow_le_pow_right (by decide) (by omega)
    omega
  obtain ⟨b, e1, e2, e3, e4⟩ := alignLoop_spec (sum2 (exps l) * 2 ^ 10) (Nat.dvd_mul_left _ _) 64 (Nat.log2 input.length) h10 h18
  have hb : 2 ^ b = 1024 * 2 ^ (b - 10) := by
    rw [show (1024 : Nat) = 2 ^ 10 from rfl, ← Nat.pow_add]; congr 1; omega
  refine ⟨b - 10, ?_, ?_, ?_⟩
  · unfold Digest.subtreeLen
    rw [hc, round_down_eq _ (by omega) (by omega), e1, hb]
  · rw [← hb]
    exact Nat.le_trans (Nat.pow_le_pow_right (by decide) e3) ha
  · rw [hb, Nat.mul_comm] at e4
    exact Nat.dvd_of_mul_dvd_mul_right (by decide) e4

theorem subtree_step {key : List U32} {fl : Byte} {hs : Nat} {d : Digest} {l : List Seg} (hk : key.length = 8) (h : LRepr key fl hs d l) (input : Bytes)
    (hi : 1024 < input.length) (hN : (flat l ++ input).length < 256 * 1024) :
    ∃ n l', d.subtreeLen input = n ∧ 0 < n ∧ n ≤ input.length ∧ LRepr key fl hs (d.subtree input n) l' ∧ flat l' = flat l ++ input.take n ∧
      (n = input.length → ∃ e l'', exps l' = e :: e :: l'') := by
  obtain ⟨j, e1, e2, e3⟩ := subtreeLen_eq h input hi hN
  have hfl := flat_length h.stk.sized
  rw [List.length_append, hfl] at hN
  have hp := Nat.two_pow_pos j
  have hctr : d.chunk.chunk_counter = BitVec.ofNat 64 (sum2 (exps l)) := h.chunk.core.ctr
  have htake : (input.take (1024 * 2 ^ j)).length = 1024 * 2 ^ j := by rw [List.length_take]; omega
  cases j with
  | zero =>
    rw [Nat.pow_zero, Nat.mul_one] at *
    have hfr : CRepr key fl (sum2 (exps l)) { newChunkState key fl with chunk_counter := d.chunk.chunk_counter } [] :=
      CRepr.fresh _ _ _ _ rfl hctr rfl rfl rfl rfl
    have hcv := fresh_cv hk hfr (input.take 1024) (by omega)
    have hc2 := (hfr.update hk (input.take 1024) (by simpa using Nat.le_of_eq htake)).core.ctr
    rw [← tree_chunk _ _ _ _ (by omega)] at hcv
    obtain ⟨l', g1, g2, g3, g4, g5, g6, _⟩ := h.stk.push hk h.near (by omega) 0 (input.take 1024) _ htake rfl
    refine ⟨1024, (0, input.take 1024) :: l', e1, by decide, e2, ?_, by rw [show flat ((0, input.take 1024) :: l') = flat l' ++ input.take 1024 from rfl, g4], fun hh => by omega⟩
    have hsub : d.subtree input 1024 = { d.pushCV (BLAKE3.tree key fl (sum2 (exps l)) (input.take 1024)).cv (BitVec.ofNat 64 (sum2 (exps l))) with
        chunk := { d.chunk with chunk_counter := BitVec.ofNat 64 (sum2 (exps l) + 1) } } := by
      unfold Digest.subtree
      dsimp only
      rw [if_pos (Nat.le_refl _), h.stk.dkey, h.stk.dfl, hcv, hc2, g5, hctr, subtree_chunks_eq _ _ (by decide), h.stk.dfl]
    have hsum : sum2 (exps ((0, input.take 1024) :: l')) = sum2 (exps l) + 1 := by
      show 2 ^ 0 + sum2 (exps l') = _
      rw [g3]; omega
    rw [hsub]
    refine ⟨?_, ?_, ⟨fun x _ => Nat.zero_le _, g2⟩, g6.trans h.size⟩
    · rw [← g5]; exact g1.counter _
    · rw [hsum]; exact h.chunk.counter
  | succ k =>
    have hpk := Nat.two_pow_pos k
    have hpp : 2 ^ (k + 1) = 2 * 2 ^ k := by rw [Nat.pow_succ]; omega
    have hpn := parent_node_eq key fl hk k (sum2 (exps l)) _ htake (by omega)
    rw [List.take_take, Nat.min_eq_left (by omega)] at hpn
    have hL : (input.take (1024 * 2 ^ k)).length = 1024 * 2 ^ k := by rw [List.length_take]; omega
    have hR : ((input.take (1024 * 2 ^ (k + 1))).drop (1024 * 2 ^ k)).length = 1024 * 2 ^ k := by rw [List.length_drop, htake]; omega
    generalize hx : input.take (1024 * 2 ^ k) = x at *
    generalize hy : (input.take (1024 * 2 ^ (k + 1))).drop (1024 * 2 ^ k) = y at *
    have hxy : input.take (1024 * 2 ^ (k + 1)) = x ++ y := by
      rw [← hx, ← hy]
      have := (List.take_append_drop (1024 * 2 ^ k) (input.take (1024 * 2 ^ (k + 1)))).symm
      rw [List.take_take, Nat.min_eq_left (by omega)] at this
      exact this
    obtain ⟨l1, g1, g2, g3, g4, g5, g6, _⟩ := h.stk.push hk h.near (by omega) k x _ hL rfl
    have hge := strict_ge g2 (by rw [g3]; exact e3)
    have hstr : Strict (exps ((k, x) :: l1)) := ⟨fun z hz => hge z hz, g2⟩
    have hsum1 : sum2 (exps ((k, x) :: l1)) = sum2 (exps l) + 2 ^ k := by
      show 2 ^ k + sum2 (exps l1) = _
      rw [g3]; omega
    obtain ⟨l2, q1, q2, q3, q4, q5, q6, q7⟩ := g1.push hk hstr.near (by omega) k y _ hR rfl
    have := q7 hstr
    subst this
    refine ⟨1024 * 2 ^ (k + 1), (k, y) :: (k, x) :: l1, e1, by omega, e2, ?_, ?_, fun _ => ⟨k, exps l1, rfl⟩⟩
    · rw [hsum1] at q1 q5 q6
      have hdiv : 1024 * 2 ^ (k + 1) / 1024 = 2 ^ (k + 1) := Nat.mul_div_cancel_left _ (by decide)
      have hsub : d.subtree input (1024 * 2 ^ (k + 1)) =
          { (d.pushCV (BLAKE3.tree key fl (sum2 (exps l)) x).cv (BitVec.ofNat 64 (sum2 (exps l)))).pushCV
              (BLAKE3.tree key fl (sum2 (exps l) + 2 ^ k) y).cv (BitVec.ofNat 64 (sum2 (exps l) + 2 ^ k)) with
            chunk := { d.chunk with chunk_counter := BitVec.ofNat 64 (sum2 (exps l) + 2 ^ (k + 1)) } } := by
        unfold Digest.subtree
        dsimp only
        rw [if_neg (by omega), h.stk.dkey, h.stk.dfl, hctr, hpn, List.take_left' (tree_cv_length _ _ hk _ _), List.drop_left' (tree_cv_length _ _ hk _ _),
          g5, hctr, subtree_half_eq _ _ (by omega), hdiv, show 2 ^ (k + 1) / 2 = 2 ^ k by omega, q5, g5, hctr, subtree_chunks_eq _ _ (by omega), hdiv, h.stk.dfl]
      rw [hsub]
      have hsum2 : sum2 (exps ((k, y) :: (k, x) :: l1)) = sum2 (exps l) + 2 ^ (k + 1) := by
        show 2 ^ k + sum2 (exps ((k, x) :: l1)) = _
        rw [hsum1]; omega
      refine ⟨?_, ?_, ⟨?_, hstr⟩, (q6.trans g6).trans h.size⟩
      · rw [← g5, ← q5]; exact q1.counter _
      · rw [hsum2]; exact h.chunk.counter
      · intro z hz
        rcases List.mem_cons.mp hz with rfl | hz
        · exact Nat.le_refl _
        · exact Nat.le_of_lt (hge z hz)
    · rw [hxy]
      simp only [flat]
      rw [g4, List.append_assoc]

/-- The main loop of `Write`. -/
theorem writeLoop_eq {key : List U32} {fl : Byte} {hs : Nat} (hk : key.length = 8) : ∀ (fuel : Nat) {d : Digest} {l : List Seg} (input : Bytes),
    LRepr key fl hs d l → (flat l ++ input).length < 256 * 1024 → input.length ≤ fuel → (input = [] → ∃ e l'', exps l = e :: e :: l'') →
    ∃ l', LRepr key fl hs (Digest.writeLoop fuel d input).1 l' ∧ flat l' ++ (Digest.writeLoop fuel d input).2 = flat l ++ input ∧
      (Digest.writeLoop fuel d input).2.length ≤ 1024 ∧ ((Digest.writeLoop fuel d input).2 = [] → ∃ e l'', exps l' = e :: e :: l'') := by
  intro fuel
  induction fuel with
  | zero =>
    intro d l input h _ hf hpair
    exact ⟨l, h, rfl, by show input.length ≤ 1024; omega, hpair⟩
  | succ fuel ih =>
    intro d l input h hN hf hpair
    unfold Digest.writeLoop
    by_cases hc : input.length > 1024
    · rw [if_pos hc]
      obtain ⟨n, l1, e1, e2, e3, g1, g2, g3⟩ := subtree_step hk h input hc hN
      dsimp only
      rw [e1]
      have hcat : flat l1 ++ input.drop n = flat l ++ input := by rw [g2, List.append_assoc, List.take_append_drop]
      obtain ⟨l', q1, q2, q3, q4⟩ := ih (input.drop n) g1 (by rw [hcat]; exact hN) (by rw [List.length_drop]; omega) (by
        intro e
        have := congrArg List.length e
        rw [List.length_drop, List.length_nil] at this
        exact g3 (by omega))
      exact ⟨l', q1, q2.trans hcat, q3, q4⟩
    · rw [if_neg hc]
      exact ⟨l, h, rfl, by show input.length ≤ 1024; omega, hpair⟩

/-- A digest that has been given `m`. -/
def DRepr (key : List U32) (fl : Byte) (hs : Nat) (d : Digest) (m : Bytes) : Prop :=
  ∃ (l : List Seg) (r : Bytes), Stk key fl d l ∧ CRepr key fl (sum2 (exps l)) d.chunk r ∧ m = flat l ++ r ∧ Near (exps l) ∧ r.length ≤ 1024 ∧
    (r ≠ [] → Strict (exps l)) ∧ (r = [] → l = [] ∨ ∃ e l', exps l = e :: e :: l') ∧ d.hs = hs

/-- The end of `Write`. -/
theorem writeEnd_eq {key : List U32} {fl : Byte} {hs : Nat} (hk : key.length = 8) {d : Digest} {l : List Seg} (input : Bytes)
    (h : LRepr key fl hs d l) (hN : (flat l ++ input).length < 256 * 1024) (hi : input.length ≤ 1024)
    (hp : input = [] → ∃ e l'', exps l = e :: e :: l'') : DRepr key fl hs (d.writeEnd input) (flat l ++ input) := by
  unfold Digest.writeEnd
  by_cases h0 : input.length > 0
  · rw [if_pos h0]
    have hfl := flat_length h.stk.sized
    rw [List.length_append, hfl] at hN
    have hu := h.chunk.update hk input (by simpa using hi)
    rw [List.nil_append] at hu
    have hst : Stk key fl { d with chunk := d.chunk.update input } l :=
      ⟨h.stk.dkey, hu.core.flags, h.stk.len, h.stk.total, h.stk.pre, h.stk.sized⟩
    have hle : l.length ≤ 9 := by rw [← exps_length]; exact near_length (k := 8) h.near (by omega)
    obtain ⟨l', g1, g2, g3, g4, g5, g6, _⟩ := hst.mergeLoop hk 256 h.near (by omega) (by omega)
    dsimp only
    have hm : Digest.mergeCvStack { d with chunk := d.chunk.update input } (d.chunk.update input).chunk_counter =
        Digest.mergeLoop (popcnt (sum2 (exps l))) 256 { d with chunk := d.chunk.update input } := by
      unfold Digest.mergeCvStack; rw [hu.core.ctr, merge_ctr (by omega)]
    rw [hm]
    have hne : input ≠ [] := append_ne_nil_of_pos h0
    refine ⟨l', input, g1, ?_, by rw [g4], g2.near, hi, fun _ => g2, fun e => absurd e hne, g6.trans h.size⟩
    rw [g5, g3]; exact hu
  · rw [if_neg h0]
    have hnil : input = [] := List.length_eq_zero_iff.mp (by omega)
    subst hnil
    exact ⟨l, [], h.stk, h.chunk, rfl, h.near, by decide, fun e => absurd rfl e, fun _ => Or.inr (hp rfl), h.size⟩

theorem write_eq {key : List U32} {fl : Byte} {hs : Nat} (hk : key.length = 8) {d : Digest} {m : Bytes} (p : Bytes)
    (h : DRepr key fl hs d m) (hN : (m ++ p).length < 256 * 1024) :
    (d.write p).2 = p.length ∧ DRepr key fl hs (d.write p).1 (m ++ p) := by
  unfold Digest.write
  by_cases hp : p.length = 0
  · have : p = [] := List.length_eq_zero_iff.mp hp
    subst this
    rw [if_pos (show ([] : Bytes).length = 0 from rfl), List.append_nil]
    exact ⟨rfl, h⟩
  rw [if_neg hp]
  obtain ⟨l, r, hst, hch, rfl, hnear, hr, hstr, hpair, hsz⟩ := h
  have hlen := cs_length hch hr
  have hpne : p ≠ [] := append_ne_nil_of_pos (by omega)
  -- the loop and the end, from a state between chunks
  have fin : ∀ {d' : Digest} {l' : List Seg} (input : Bytes), LRepr key fl hs d' l' → (flat l' ++ input).length < 256 * 1024 → input ≠ [] →
      DRepr key fl hs ((Digest.writeLoop input.length d' input).1.writeEnd (Digest.writeLoop input.length d' input).2) (flat l' ++ input) := by
    intro d' l' input hl hN hne
    obtain ⟨l2, q1, q2, q3, q4⟩ := writeLoop_eq hk input.length input hl hN (Nat.le_refl _) (fun e => absurd e hne)
    have := writeEnd_eq hk _ q1 (by rw [q2]; exact hN) q3 q4
    rw [q2] at this
    exact this
  unfold Digest.writeChunk
  by_cases hr0 : r = []
  · subst hr0
    rw [if_neg (by rw [hlen]; exact Nat.lt_irrefl _)]
    refine ⟨rfl, ?_⟩
    rw [List.append_nil] at hN ⊢
    exact fin p ⟨hst, hch, hnear, hsz⟩ hN hpne
  · have hrl := List.length_pos_iff.mpr hr0
    rw [if_pos (by omega), hlen]
    dsimp only
    by_cases hsm : 1024 - r.length ≥ p.length
    · have ht : (if 1024 - r.length > p.length then p.length else 1024 - r.length) = p.length := by split <;> omega
      rw [ht, List.drop_length, List.take_length, if_neg (by simp)]
      refine ⟨rfl, ?_⟩
      dsimp only
      have hu := hch.update hk p (by rw [List.length_append]; omega)
      refine ⟨l, r ++ p, ⟨hst.dkey, hu.core.flags, hst.len, hst.total, hst.pre, hst.sized⟩, hu, by rw [List.append_assoc], hnear, by rw [List.length_append]; omega,
        fun _ => hstr hr0, fun e => absurd (List.append_eq_nil_iff.mp e).1 hr0, hsz⟩
    · have ht : (if 1024 - r.length > p.length then p.length else 1024 - r.length) = 1024 - r.length := by split <;> omega
      have htl : (p.take (1024 - r.length)).length = 1024 - r.length := by rw [List.length_take]; omega
      have hfull : (r ++ p.take (1024 - r.length)).length = 1024 := by rw [List.length_append]; omega
      have hu := hch.update hk (p.take (1024 - r.length)) (by omega)
      have hst' : Stk key fl { d with chunk := d.chunk.update (p.take (1024 - r.length)) } l :=
        ⟨hst.dkey, hu.core.flags, hst.len, hst.total, hst.pre, hst.sized⟩
      have hfl := flat_length hst.sized
      have hN' := hN
      rw [List.length_append, List.length_append, hfl] at hN'
      have hcv := (hu.output hk (by omega)).cv
      rw [← tree_chunk _ _ _ _ (by omega)] at hcv
      obtain ⟨l', g1, g2, g3, g4, g5, g6, g7⟩ := hst'.push hk hnear (by omega) 0 (r ++ p.take (1024 - r.length)) _ (by rw [hfull]) rfl
      have := g7 (hstr hr0)
      subst this
      rw [ht, if_pos (by rw [List.length_drop]; omega)]
      dsimp only
      have hctr := hu.core.ctr
      rw [hcv, hctr]
      have hsum : sum2 (exps ((0, r ++ p.take (1024 - r.length)) :: l')) = sum2 (exps l') + 1 := Nat.add_comm _ _
      have hcat : flat ((0, r ++ p.take (1024 - r.length)) :: l') ++ p.drop (1024 - r.length) = flat l' ++ r ++ p := by
        simp only [flat]
        rw [List.append_assoc, List.append_assoc, List.take_append_drop, List.append_assoc]
      refine ⟨rfl, ?_⟩
      rw [← hcat]
      refine fin _ ?_ (by rw [hcat]; exact hN) ?_
      · generalize Digest.pushCV { d with chunk := d.chunk.update (p.take (1024 - r.length)) } _ _ = d2 at g1 g5 g6
        refine ⟨⟨g1.dkey, g1.dfl, g1.len, g1.total, g1.pre, g1.sized⟩, ?_, ⟨fun x _ => Nat.zero_le _, g2⟩, g6.trans hsz⟩
        rw [hsum]
        refine CRepr.fresh _ _ _ _ g1.dkey ?_ rfl rfl rfl g1.dfl
        show d2.chunk.chunk_counter + 1 = _
        rw [g5, BitVec.ofNat_add]
        show (d.chunk.update _).chunk_counter + 1 = _
        rw [hctr]; rfl
      · intro e; have := congrArg List.length e; rw [List.length_drop, List.length_nil] at this; omega

theorem finalize_eq {key : List U32} {fl : Byte} {hs : Nat} (hk : key.length = 8) {d : Digest} {m : Bytes} (n : Nat)
    (h : DRepr key fl hs d m) (hN : m.length < 256 * 1024) : d.finalize n = some (BLAKE3.hashMode key fl n m) := by
  obtain ⟨l, r, hst, hch, rfl, hnear, hr, hstr, hpair, hsz⟩ := h
  unfold Digest.finalize BLAKE3.hashMode
  by_cases hn : n = 0
  · subst hn; rw [if_pos rfl]; rfl
  rw [if_neg hn]
  have hfl := flat_length hst.sized
  rw [List.length_append, hfl] at hN
  have hle : l.length ≤ 9 := by rw [← exps_length]; exact near_length (k := 8) hnear (by omega)
  have hlen : d.cv_stack_len.toNat = l.length := by rw [hst.len, BitVec.toNat_ofNat, Nat.mod_eq_of_lt (by omega)]
  have hcl := cs_length hch hr
  by_cases hl0 : l = []
  · subst hl0
    rw [if_pos (show d.cv_stack_len = 0 from hst.len)]
    have ho := hch.output hk hr
    rw [← tree_chunk _ _ _ _ hr] at ho
    exact congrArg some (rootBytes_eq ho n)
  · have hlp := List.length_pos_iff.mpr hl0
    have hz : ¬ d.cv_stack_len = 0 := by
      intro e
      rw [e] at hlen
      have : (0 : BitVec 8).toNat = 0 := rfl
      omega
    rw [if_neg hz]
    by_cases hr0 : r = []
    · subst hr0
      rw [if_neg (by rw [hcl]; exact Nat.lt_irrefl _), hlen]
      rcases hpair rfl with e | ⟨e, le, he⟩
      · exact absurd e hl0
      match l, he with
      | (e1, a) :: (e2, b) :: l2, he =>
        simp only [exps, List.map_cons, List.cons.injEq] at he
        obtain ⟨rfl, rfl, hl2⟩ := he
        rw [if_neg (by simp only [List.length_cons]; omega)]
        have ha : a.length = 1024 * 2 ^ e2 := hst.sized (e2, a) (by simp)
        have hb : b.length = 1024 * 2 ^ e2 := hst.sized (e2, b) (by simp)
        have hp := Nat.two_pow_pos e2
        have hsp := tree_split key fl (sum2 (exps l2)) e2 b a hb (append_ne_nil_of_pos (by omega)) (by omega)
        obtain ⟨rest, hrest⟩ := hst.pre
        have cb := tree_cv_length key fl hk (sum2 (exps l2)) b
        have ca := tree_cv_length key fl hk (sum2 (exps l2) + 2 ^ e2) a
        have hS := stk_length key fl hk l2
        rw [stk_cons, stk_cons, show sum2 (exps ((e2, b) :: l2)) = sum2 (exps l2) + 2 ^ e2 from Nat.add_comm _ _] at hrest
        have hpr := parent_repr (key := key) (fl := fl) hk (BLAKE3.tree key fl (sum2 (exps l2)) b).cv (BLAKE3.tree key fl (sum2 (exps l2) + 2 ^ e2) a).cv
          (by rw [List.length_append, ca, cb])
        rw [← hsp] at hpr
        have hblock : goCopy (zeros 64) 0 ((d.cv_stack.drop (l2.length * 32)).take 64) =
            (BLAKE3.tree key fl (sum2 (exps l2)) b).cv ++ (BLAKE3.tree key fl (sum2 (exps l2) + 2 ^ e2) a).cv := by
          rw [hrest, show l2.length * 32 = (stk key fl l2).length by omega, List.append_assoc, List.append_assoc, List.drop_left, ← List.append_assoc,
            List.take_left' (by rw [List.length_append, ca, cb]), goCopy_block _ (by rw [List.length_append, ca, cb])]
        have hres := finalLoop_eq (d := d) hk hst.dkey hst.dfl l2 _ (b ++ a)
          ⟨_, by rw [hrest, List.append_assoc, List.append_assoc]⟩ (fun x hx => hst.sized x (by simp [hx])) hnear.2.2
          (append_ne_nil_of_pos (by rw [List.length_append]; omega)) (by
            intro x hx
            have := hnear.2.1 x hx
            have : 2 ^ (e2 + 1) ≤ 2 ^ x := Nat.pow_le_pow_right (by decide) this
            rw [Nat.pow_succ] at this
            rw [List.length_append]; omega) hpr
        dsimp only [List.length_cons]
        rw [show l2.length + 1 + 1 - 2 = l2.length by omega, hblock, hst.dkey, hst.dfl]
        have := rootBytes_eq hres n
        simp only [flat, List.append_nil]
        rw [List.append_assoc]
        exact congrArg some this
    · have hrl := List.length_pos_iff.mpr hr0
      rw [if_pos (by omega), hlen]
      have ho := hch.output hk hr
      rw [← tree_chunk _ _ _ _ hr] at ho
      have hres := finalLoop_eq (d := d) hk hst.dkey hst.dfl l _ r hst.pre hst.sized (hstr hr0) hr0 (by
        intro x _
        have := Nat.two_pow_pos x
        omega) ho
      exact congrArg some (rootBytes_eq hres n)

theorem reset_eq {key : List U32} {fl : Byte} {hs : Nat} {d : Digest} (h1 : d.key = key) (h2 : d.chunk.flags = fl) (h3 : d.hs = hs) :
    DRepr key fl hs d.reset [] := by
  refine ⟨[], [], ⟨h1, h2, rfl, ?_, ⟨_, rfl⟩, by intro s hs; simp at hs⟩, ?_, rfl, trivial, by decide, fun _ => trivial, fun _ => Or.inl rfl, h3⟩
  · show (zeros (55 * 32)).length = _
    rw [zeros_length]
  · exact CRepr.fresh _ _ _ _ h1 rfl rfl rfl rfl h2

end Verif.BLAKE3
