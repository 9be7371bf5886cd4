import Verif.Lemmas.MD6F
import Verif.BufferX
import Mathlib.Tactic.IntervalCases
import Verif.Lemmas.K12Sponge
/-
The digest object of package md6.
-/
namespace Verif.MD6

/-- The parameters that the object holds. -/
structure ParRep (g : Digest) (q : Spec.MD6.Par) : Prop where
  d : g.d = q.d
  K : g.K.map w = Spec.MD6.K q
  Kl : g.K.length = 8
  k : g.k = q.key.length
  r : g.r = q.r
  rb : 40 ≤ q.r
  L : g.L = q.L

theorem words_toWord (b : Bytes) : (toWord b).map w = Spec.MD6.words b := by
  unfold toWord Spec.MD6.words
  rw [List.map_map]
  refine List.map_congr_left fun i _ => ?_
  show (getBE32 b (8 * i) ++ getBE32 b (8 * i + 4) : BitVec 64) = _
  rw [← getBE64_split]
theorem Q_eq : Q.map w = Spec.MD6.Q := by decide

theorem U_eq (ell : Nat) : w (((BitVec.ofNat 32 ell &&& 0xFF) <<< 24 ||| (0#32 / 0xFFFFFFFF#32) &&& 0xFFFFFF, 0#32 &&& 0xFFFFFFFF#32) : P) = Spec.MD6.U ell 0 := by
  unfold w Spec.MD6.U
  dsimp only
  apply BitVec.eq_of_toNat_eq
  have e1 : (0#32 / 0xFFFFFFFF#32) &&& 0xFFFFFF = 0#32 := by decide
  have e2 : 0#32 &&& 0xFFFFFFFF#32 = 0#32 := by decide
  rw [e1, e2, BitVec.or_zero, BitVec.toNat_append, BitVec.toNat_append, BitVec.toNat_shiftLeft, BitVec.toNat_and, BitVec.toNat_ofNat, BitVec.toNat_ofNat, BitVec.toNat_ofNat]
  rw [show (0xFF : BitVec 32).toNat = 2 ^ 8 - 1 from rfl, Nat.and_two_pow_sub_one_eq_mod]
  simp only [Nat.shiftLeft_eq, Nat.zero_mod, Nat.or_zero, BitVec.toNat_ofNat]
  omega

theorem or_lt_shift (a b n : Nat) (h : b < 2 ^ n) : a <<< n ||| b = a * 2 ^ n + b := by
  rw [← Nat.shiftLeft_add_eq_or_of_lt h, Nat.shiftLeft_eq]

theorem V_eq (q : Spec.MD6.Par) (z p : Nat) : w ((((BitVec.ofNat 32 q.r &&& 0xFFF) <<< 16) ||| ((BitVec.ofInt 32 q.L &&& 0xFF) <<< 8) ||| ((BitVec.ofNat 32 z &&& 0xF) <<< 4) |||
      ((BitVec.ofNat 32 p &&& 0xF000) >>> 12),
    ((BitVec.ofNat 32 p &&& 0xFFF) <<< 20) ||| ((BitVec.ofNat 32 q.key.length &&& 0xFF) <<< 12) ||| (BitVec.ofNat 32 q.d &&& 0xFFF)) : P) = Spec.MD6.V q z p := by
  apply BitVec.eq_of_getLsbD_eq; intro i hi
  rw [w_lsb]
  unfold Spec.MD6.V
  dsimp only
  have c : ∀ (n k j : Nat), (BitVec.ofNat n k).getLsbD j = (decide (j < n) && k.testBit j) := fun n k j => BitVec.getLsbD_ofNat ..
  have cF : ∀ j, (0xFFF : BitVec 32).getLsbD j = decide (j < 12) := fun j => by
    rw [show (0xFFF : BitVec 32) = BitVec.ofNat 32 (2 ^ 12 - 1) from rfl, c, Nat.testBit_two_pow_sub_one]; by_cases h : j < 12 <;> simp [h]; omega
  have c8 : ∀ j, (0xFF : BitVec 32).getLsbD j = decide (j < 8) := fun j => by
    rw [show (0xFF : BitVec 32) = BitVec.ofNat 32 (2 ^ 8 - 1) from rfl, c, Nat.testBit_two_pow_sub_one]; by_cases h : j < 8 <;> simp [h]; omega
  have c4 : ∀ j, (0xF : BitVec 32).getLsbD j = decide (j < 4) := fun j => by
    rw [show (0xF : BitVec 32) = BitVec.ofNat 32 (2 ^ 4 - 1) from rfl, c, Nat.testBit_two_pow_sub_one]; by_cases h : j < 4 <;> simp [h]; omega
  have cH : ∀ j, (0xF000 : BitVec 32).getLsbD j = (decide (12 ≤ j) && decide (j < 16)) := fun j => by
    rw [show (0xF000 : BitVec 32) = (BitVec.ofNat 32 (2 ^ 4 - 1)) <<< 12 from rfl, BitVec.getLsbD_shiftLeft, c, Nat.testBit_two_pow_sub_one]
    by_cases h : j < 12
    · have : ¬ 12 ≤ j := by omega
      simp [h, this]
    · by_cases h2 : j < 16
      · have h3 : 12 ≤ j := by omega
        have h4 : j - 12 < 4 := by omega
        have h5 : j < 32 := by omega
        have h6 : j - 12 < 32 := by omega
        simp [h, h2, h3, h4, h5, h6]
      · have h4 : ¬ j - 12 < 4 := by omega
        simp [h2, h4]
  have cI : ∀ j, j < 8 → (BitVec.ofInt 32 q.L).getLsbD j = (BitVec.ofInt 8 q.L).getLsbD j := by
    intro j hj
    have e : BitVec.ofInt 8 q.L = (BitVec.ofInt 32 q.L).setWidth 8 := by
      apply BitVec.eq_of_toNat_eq
      rw [BitVec.toNat_setWidth, BitVec.toNat_ofInt, BitVec.toNat_ofInt]
      omega
    rw [e, BitVec.getLsbD_setWidth]
    simp [hj]
  have g8 : ∀ j, ¬ j < 8 → (BitVec.ofInt 8 q.L).getLsbD j = false := fun j h => BitVec.getLsbD_of_ge _ _ (by omega)
  have z4 : ∀ j, (0#4).getLsbD j = false := fun j => BitVec.getLsbD_zero
  simp only [BitVec.getLsbD_append, BitVec.getLsbD_or, BitVec.getLsbD_shiftLeft, BitVec.getLsbD_and, BitVec.getLsbD_ushiftRight, cF, c8, c4, cH, c]
  have hL := fun j h => (cI j h)
  interval_cases i <;> simp [hL, -BitVec.getLsbD_eq_getElem]

theorem toWord_length (b : Bytes) : (toWord b).length = b.length / 8 := by simp [toWord]

theorem fit_eq (A B : List U64) (h : A.length = 25) : fit (A ++ B) = A ++ Spec.MD6.cut64 B := by
  unfold fit Spec.MD6.cut64
  rw [List.append_assoc, List.take_append, List.take_of_length_le (by omega), h]
  congr 1
  have : (List.replicate 89 0#64 : List U64) = List.replicate 64 0#64 ++ List.replicate 25 0#64 := by
    rw [List.replicate_append_replicate]
  rw [this, ← List.append_assoc, List.take_append_of_le_length (by simp)]

theorem mid_eq (g : Digest) (q : Spec.MD6.Par) (h : ParRep g q) (B C : List P) (z p : Nat) (hC : C.length ≤ 16) (hB : B.length ≤ 96) :
    (g.mid B C 0 (BitVec.ofNat 32 p) (BitVec.ofNat 32 z)).map w = Spec.MD6.node q g.ell z p (Spec.MD6.cut64 (C.map w ++ B.map w)) ∧
    (g.mid B C 0 (BitVec.ofNat 32 p) (BitVec.ofNat 32 z)).length = 16 := by
  unfold Digest.mid
  dsimp only
  have hrb := h.rb
  have hKl := h.Kl
  rw [h.r, h.L, h.k, h.d]
  have hlen : (Q ++ g.K ++ [(((BitVec.ofNat 32 g.ell &&& 0xFF) <<< 24 ||| (0#32 / 0xFFFFFFFF#32) &&& 0xFFFFFF, 0#32 &&& 0xFFFFFFFF#32) : P)] ++
      [((((BitVec.ofNat 32 q.r &&& 0xFFF) <<< 16) ||| ((BitVec.ofInt 32 q.L &&& 0xFF) <<< 8) ||| ((BitVec.ofNat 32 z &&& 0xF) <<< 4) |||
        ((BitVec.ofNat 32 p &&& 0xF000) >>> 12),
      ((BitVec.ofNat 32 p &&& 0xFFF) <<< 20) ||| ((BitVec.ofNat 32 q.key.length &&& 0xFF) <<< 12) ||| (BitVec.ofNat 32 q.d &&& 0xFFF)) : P)] ++ C ++ B).length ≤ 89 + q.r * 16 := by
    simp only [List.length_append, List.length_cons, List.length_nil, hKl]
    have : Q.length = 15 := rfl
    omega
  obtain ⟨e1, e2⟩ := f_eq q.r _ hlen
  refine ⟨?_, e2⟩
  refine e1.trans ?_
  unfold Spec.MD6.node
  simp only [List.map_append, List.map_cons, List.map_nil, U_eq, V_eq, Q_eq, h.K]
  have hQ : Spec.MD6.Q.length = 15 := rfl
  have hK : (Spec.MD6.K q).length = 8 := by rw [← h.K, List.length_map]; exact hKl
  rw [List.append_assoc (_ ++ _) (C.map w), fit_eq _ _ (by simp [hQ, hK])]
  simp only [List.append_assoc, List.cons_append, List.nil_append]

theorem padCount_eq (n b : Nat) : padCount n b = Spec.MD6.fill b n := by
  unfold padCount Spec.MD6.fill
  by_cases h : n = 0
  · rw [if_pos h, if_pos (by omega)]
  · rw [if_neg h, if_neg (by omega)]

structure ChRep (g : Digest) (q : Spec.MD6.Par) (st : List U64 × Nat) : Prop where
  par : ParRep g q
  C : g.C.map w = st.1
  Cl : g.C.length ≤ 16
  ell : g.ell = st.2

theorem fill_le (b n c : Nat) (hb : 0 < b) (h : n + b ≤ c) : n + Spec.MD6.fill b n ≤ c := by
  unfold Spec.MD6.fill
  split
  · omega
  · have := Nat.mod_lt (b - n % b) hb; omega

theorem process_node (g : Digest) (q : Spec.MD6.Par) (st : List U64 × Nat) (h : ChRep g q st) (M : Bytes) (len : U64) (fin : Bool) (hM : M.length ≤ 512)
    (hf : fin = false → M.length = 512) :
    (g.process M len fin).C.map w = (if ((st.2 + 1 : Nat) : Int) > q.L then
      Spec.MD6.chainNode q (st.2 + 1) (if fin then 1 else 0) (if fin then 8 * Spec.MD6.fill 384 M.length else 0) st.1 (M ++ zeros (Spec.MD6.fill 384 M.length))
      else Spec.MD6.chainNode q (st.2 + 1) (if fin ∧ len > 512 then 0 else 1) (if fin then 8 * Spec.MD6.fill 512 M.length else 0) st.1
        (M ++ zeros (Spec.MD6.fill 512 M.length))) ∧
    (g.process M len fin).C.length = 16 ∧ (g.process M len fin).ell = st.2 + 1 ∧ ParRep (g.process M len fin) q ∧
    (g.process M len fin).x = g.x ∧ (g.process M len fin).nx = g.nx ∧ (g.process M len fin).len = g.len := by
  have hp1 : ParRep { g with ell := g.ell + 1 } q := ⟨h.par.d, h.par.K, h.par.Kl, h.par.k, h.par.r, h.par.rb, h.par.L⟩
  have hell := h.ell
  have f384 : M.length + Spec.MD6.fill 384 M.length ≤ 896 := fill_le _ _ _ (by omega) (by omega)
  have f384' : M.length + Spec.MD6.fill 384 M.length ≤ 768 := by
    unfold Spec.MD6.fill; split <;> omega
  have f512 : M.length + Spec.MD6.fill 512 M.length ≤ 512 := by
    unfold Spec.MD6.fill; split <;> omega
  unfold Digest.process
  dsimp only
  rw [h.ell]
  by_cases hc : ((st.2 + 1 : Nat) : Int) > q.L
  · rw [if_pos (show ((st.2 + 1 : Nat) : Int) > g.L from by rw [h.par.L]; exact hc), if_pos hc]
    unfold Digest.seq
    dsimp only
    rw [padCount_eq]
    have hp1 : ParRep { g with ell := st.2 + 1 } q := ⟨h.par.d, h.par.K, h.par.Kl, h.par.k, h.par.r, h.par.rb, h.par.L⟩
    obtain ⟨e1, e2⟩ := mid_eq { g with ell := st.2 + 1 } q hp1 (toWord (M ++ zeros (Spec.MD6.fill 384 M.length))) g.C
      (if fin then 1 else 0) (if fin then 8 * Spec.MD6.fill 384 M.length else 0) h.Cl (by rw [toWord_length, List.length_append, zeros_length]; omega)
    refine ⟨?_, e2, rfl, ⟨h.par.d, h.par.K, h.par.Kl, h.par.k, h.par.r, h.par.rb, h.par.L⟩, rfl, rfl, rfl⟩
    rw [e1, h.C, words_toWord]; rfl
  · rw [if_neg (show ¬ ((st.2 + 1 : Nat) : Int) > g.L from by rw [h.par.L]; exact hc), if_neg hc]
    unfold Digest.par
    dsimp only
    rw [padCount_eq]
    have hp1 : ParRep { g with ell := st.2 + 1 } q := ⟨h.par.d, h.par.K, h.par.Kl, h.par.k, h.par.r, h.par.rb, h.par.L⟩
    obtain ⟨e1, e2⟩ := mid_eq { g with ell := st.2 + 1 } q hp1 (toWord (M ++ zeros (Spec.MD6.fill 512 M.length))) g.C
      (if fin ∧ len > 512 then 0 else 1) (if fin then 8 * Spec.MD6.fill 512 M.length else 0) h.Cl (by rw [toWord_length, List.length_append, zeros_length]; omega)
    refine ⟨?_, e2, rfl, ⟨h.par.d, h.par.K, h.par.Kl, h.par.k, h.par.r, h.par.rb, h.par.L⟩, rfl, rfl, rfl⟩
    rw [e1, h.C, words_toWord]; rfl

theorem process_step (g : Digest) (q : Spec.MD6.Par) (st : List U64 × Nat) (h : ChRep g q st) (M : Bytes) (len : U64) (hM : M.length = 512) :
    ChRep (g.process M len false) q (Spec.MD6.chainStep q st M) := by
  obtain ⟨e1, e2, e3, e4, _⟩ := process_node g q st h M len false (by omega) (fun _ => hM)
  refine ⟨e4, ?_, by omega, e3⟩
  rw [e1]
  unfold Spec.MD6.chainStep
  dsimp only
  have f3 : Spec.MD6.fill 384 512 = 256 := by decide
  have f5 : Spec.MD6.fill 512 512 = 0 := by decide
  have z0 : zeros 0 = [] := rfl
  rw [hM, f3, f5, z0, List.append_nil]
  by_cases hc : ((st.2 + 1 : Nat) : Int) > q.L
  · rw [if_pos hc, if_pos hc]; rfl
  · rw [if_neg hc, if_neg hc]; rfl

/-- The object after the message `m`. -/
structure Rep (q : Spec.MD6.Par) (g : Digest) (m : Bytes) : Prop where
  ch : ChRep g q ((fullBlocks 512 m).foldl (Spec.MD6.chainStep q) ([], 0))
  xl : g.x.length = 512
  nx : g.nx = (restBlock 512 m).length
  x : g.x.take g.nx = restBlock 512 m
  len : g.len = BitVec.ofNat 64 m.length

theorem rest_lt (m : Bytes) : (restBlock 512 m).length < 512 := by rw [restBlock_length]; exact Nat.mod_lt _ (by omega)

theorem rep_part (q : Spec.MD6.Par) (g : Digest) (m p : Bytes) (h : Rep q g m) (hp : g.nx + p.length < 512) :
    Rep q { g with x := goCopy g.x g.nx p, nx := g.nx + p.length, len := g.len + BitVec.ofNat 64 p.length } (m ++ p) := by
  obtain ⟨e1, e2⟩ := K12.fullBlocks_rest m p 512 (by omega)
  have hnx := h.nx
  have hl : (restBlock 512 m ++ p).length < 512 := by rw [List.length_append]; omega
  rw [fullBlocks_lt _ _ hl, List.append_nil] at e1
  rw [restBlock_lt _ _ hl] at e2
  refine ⟨?_, ?_, ?_, ?_, ?_⟩
  · rw [e1]; exact ⟨⟨h.ch.par.d, h.ch.par.K, h.ch.par.Kl, h.ch.par.k, h.ch.par.r, h.ch.par.rb, h.ch.par.L⟩, h.ch.C, h.ch.Cl, h.ch.ell⟩
  · show (goCopy g.x g.nx p).length = 512; rw [goCopy_length _ _ _ (by have := h.xl; omega)]; exact h.xl
  · show g.nx + p.length = _; rw [e2, List.length_append]; omega
  · show (goCopy g.x g.nx p).take (g.nx + p.length) = _
    rw [e2, ← h.x]
    have := h.xl
    rw [goCopy_take _ _ _ (by omega)]
  · show g.len + _ = _; rw [h.len, List.length_append, BitVec.ofNat_add]

theorem rep_block (q : Spec.MD6.Par) (g : Digest) (m p : Bytes) (h : Rep q g m) (hp : 512 ≤ g.nx + p.length) :
    Rep q { ({ g with x := goCopy g.x g.nx p, len := g.len + BitVec.ofNat 64 (512 - g.nx) } : Digest).process (goCopy g.x g.nx p)
      (g.len + BitVec.ofNat 64 (512 - g.nx)) false with nx := 0 } (m ++ p.take (512 - g.nx)) := by
  obtain ⟨e1, e2⟩ := K12.fullBlocks_rest m (p.take (512 - g.nx)) 512 (by omega)
  have hnx := h.nx
  have hr := rest_lt m
  have hxl := h.xl
  have hl : (restBlock 512 m ++ p.take (512 - g.nx)).length = 512 := by rw [List.length_append, List.length_take]; omega
  have hcopy : goCopy g.x g.nx p = restBlock 512 m ++ p.take (512 - g.nx) := by
    unfold goCopy
    rw [h.x, hxl, List.drop_eq_nil_of_le (by omega)]
    simp
  rw [fullBlocks_one _ _ (by omega) hl] at e1
  have e2' : restBlock 512 (restBlock 512 m ++ p.take (512 - g.nx)) = [] := by
    apply List.eq_nil_of_length_eq_zero; rw [restBlock_length, hl]
  rw [e2'] at e2
  rw [hcopy]
  obtain ⟨k1, k2, k3, k4, k5, k6, k7⟩ := process_node { g with x := restBlock 512 m ++ p.take (512 - g.nx), len := g.len + BitVec.ofNat 64 (512 - g.nx) } q _
    ⟨⟨h.ch.par.d, h.ch.par.K, h.ch.par.Kl, h.ch.par.k, h.ch.par.r, h.ch.par.rb, h.ch.par.L⟩, h.ch.C, h.ch.Cl, h.ch.ell⟩ (restBlock 512 m ++ p.take (512 - g.nx))
    (g.len + BitVec.ofNat 64 (512 - g.nx)) false (by omega) (fun _ => hl)
  have st := process_step { g with x := restBlock 512 m ++ p.take (512 - g.nx), len := g.len + BitVec.ofNat 64 (512 - g.nx) } q _
    ⟨⟨h.ch.par.d, h.ch.par.K, h.ch.par.Kl, h.ch.par.k, h.ch.par.r, h.ch.par.rb, h.ch.par.L⟩, h.ch.C, h.ch.Cl, h.ch.ell⟩ (restBlock 512 m ++ p.take (512 - g.nx))
    (g.len + BitVec.ofNat 64 (512 - g.nx)) hl
  refine ⟨?_, ?_, ?_, ?_, ?_⟩
  · rw [e1, List.foldl_append, List.foldl_cons, List.foldl_nil]
    exact ⟨⟨st.par.d, st.par.K, st.par.Kl, st.par.k, st.par.r, st.par.rb, st.par.L⟩, st.C, st.Cl, st.ell⟩
  · show (Digest.process _ _ _ _).x.length = 512; rw [k5]; exact hl
  · rw [e2]; rfl
  · rw [e2]; rfl
  · show (Digest.process _ _ _ _).len = _; rw [k7]
    show g.len + _ = _
    rw [h.len, List.length_append, List.length_take, BitVec.ofNat_add, Nat.min_eq_left (by omega)]

theorem writeLoop_rep (q : Spec.MD6.Par) (fuel : Nat) (g : Digest) (m p : Bytes) (h : Rep q g m) (hf : p.length < fuel) :
    ∃ a b, p = a ++ b ∧ (g.writeLoop fuel p).2 = b ∧ Rep q (g.writeLoop fuel p).1 (m ++ a) ∧ (g.writeLoop fuel p).1.nx + b.length < 512 := by
  induction fuel generalizing g m p with
  | zero => omega
  | succ fuel ih =>
    have hnx := h.nx
    have hr := rest_lt m
    unfold Digest.writeLoop
    by_cases hc : g.nx + p.length ≥ 512
    · rw [if_pos hc]
      dsimp only
      obtain ⟨a, b, e1, e2, e3, e4⟩ := ih _ _ (p.drop (512 - g.nx)) (rep_block q g m p h hc) (by rw [List.length_drop]; omega)
      refine ⟨p.take (512 - g.nx) ++ a, b, ?_, e2, ?_, e4⟩
      · rw [List.append_assoc, ← e1, List.take_append_drop]
      · rw [← List.append_assoc]; exact e3
    · rw [if_neg hc]
      exact ⟨[], p, rfl, rfl, by rw [List.append_nil]; exact h, by show g.nx + p.length < 512; omega⟩

theorem write_rep (q : Spec.MD6.Par) (g : Digest) (m p : Bytes) (h : Rep q g m) : Rep q (g.write p).1 (m ++ p) ∧ (g.write p).2 = p.length := by
  obtain ⟨a, b, e1, e2, e3, e4⟩ := writeLoop_rep q (p.length + 1) g m p h (by omega)
  unfold Digest.write
  dsimp only
  refine ⟨?_, rfl⟩
  rw [e2]
  have := rep_part q _ _ b e3 e4
  rw [List.append_assoc, ← e1] at this
  exact this

theorem fromWord_eq (C : List P) : fromWord C = ((C.map w).map be64).flatten := by
  unfold fromWord
  rw [List.map_map]
  congr 1
  refine List.map_congr_left fun p _ => ?_
  show _ = be64 (p.1 ++ p.2)
  rw [be64_append]

theorem crop_eq (d : Nat) (C : List P) (h : C.length = 16) (hd : d ≤ 1024) : crop d (fromWord C) = Spec.MD6.crop d (C.map w) := by
  unfold crop Spec.MD6.crop
  dsimp only
  rw [← fromWord_eq]
  have hl : (fromWord C).length = 128 := by rw [fromWord_eq, map_be64_length, List.length_map, h]
  have hl2 : ((fromWord C).drop (128 - (d + 7) / 8)).length = (d + 7) / 8 := by rw [List.length_drop, hl]; omega
  rw [hl, hl2]
  by_cases h8 : d % 8 = 0
  · rw [if_pos h8, if_neg (by omega)]
  · rw [if_neg h8, if_pos (by omega)]
    have : ∀ n : Nat, BitVec.ofNat 8 (n &&& 0xFF) = BitVec.ofNat 8 n := by
      intro n; apply BitVec.eq_of_toNat_eq
      rw [BitVec.toNat_ofNat, BitVec.toNat_ofNat, show (0xFF : Nat) = 2 ^ 8 - 1 from rfl, Nat.and_two_pow_sub_one_eq_mod, Nat.mod_mod]
    rw [this]

theorem checkSum_eq (q : Spec.MD6.Par) (g : Digest) (m : Bytes) (h : Rep q g m) (hm : m.length < 2 ^ 64) (hd : q.d ≤ 1024) :
    g.checkSum = some (Spec.MD6.chain q m) := by
  have hr := rest_lt m
  obtain ⟨e1, e2, _⟩ := process_node g q _ h.ch (g.x.take g.nx) g.len true (by rw [h.x]; omega) (fun h => by cases h)
  unfold Digest.checkSum
  dsimp only
  have hl : (fromWord (g.process (g.x.take g.nx) g.len true).C).length = 128 := by rw [fromWord_eq, map_be64_length, List.length_map, e2]
  rw [hl, h.ch.par.d, if_neg (by omega), crop_eq _ _ e2 hd, e1]
  unfold Spec.MD6.chain Spec.MD6.chainLast
  rw [h.x, h.len]
  have hc : (BitVec.ofNat 64 m.length > (512 : U64)) ↔ 512 < m.length := by
    show (512 : U64) < _ ↔ _
    rw [BitVec.lt_def, BitVec.toNat_ofNat, Nat.mod_eq_of_lt hm]; rfl
  simp only [hc, true_and, if_true]

/-- The parameters of an object made with the given size, key and number of levels. -/
def par (size : Nat) (key : Bytes) (L : Int) : Spec.MD6.Par :=
  ⟨size, key.take 64, if key ≠ [] then max 80 (40 + size / 4) else 40 + size / 4, L⟩

theorem new_rep (size : Nat) (key : Bytes) (L : Int) : Rep (par size key L) (newDigest size key L) [] := by
  have hk : (if key.length > 64 then key.take 64 else key) = key.take 64 := by
    split
    · rfl
    · rw [List.take_of_length_le (by omega)]
  have hkl : (key.take 64).length ≤ 64 := by rw [List.length_take]; omega
  refine ⟨⟨⟨rfl, ?_, ?_, ?_, ?_, ?_, rfl⟩, rfl, ?_, rfl⟩, ?_, rfl, rfl, rfl⟩
  · show (toWord _).map w = _; rw [hk, words_toWord]; rfl
  · show (toWord _).length = _; rw [hk, toWord_length, List.length_append, zeros_length]; omega
  · show List.length _ = _; rw [hk]; rfl
  · show (if List.length _ > 0 then _ else _) = _
    rw [hk]
    unfold par
    by_cases h : key = []
    · subst h; simp
    · have : (key.take 64).length > 0 := by
        rw [List.length_take]; have := List.length_pos_iff.2 h; omega
      dsimp only
      rw [if_pos this, if_pos h]
  · show 40 ≤ (par size key L).r
    unfold par; dsimp only
    split <;> omega
  · exact Nat.zero_le _
  · exact zeros_length _

theorem reset_rep (q : Spec.MD6.Par) (g : Digest) (m : Bytes) (h : Rep q g m) : Rep q g.reset [] :=
  ⟨⟨⟨h.ch.par.d, h.ch.par.K, h.ch.par.Kl, h.ch.par.k, h.ch.par.r, h.ch.par.rb, h.ch.par.L⟩, rfl, Nat.zero_le _, rfl⟩, zeros_length _, rfl, rfl, rfl⟩

theorem node_length (q : Spec.MD6.Par) (ell z p : Nat) (D : List U64) (h : D.length = 64) : 16 ≤ (Spec.MD6.node q ell z p D).length := by
  unfold Spec.MD6.node Spec.MD6.f
  have hK : 8 ≤ (Spec.MD6.K q).length := by
    unfold Spec.MD6.K Spec.MD6.words
    rw [List.length_map, List.length_range, List.length_append, zeros_length]; omega
  rw [List.length_drop]
  have := seqAt_length (Spec.MD6.Q ++ Spec.MD6.K q ++ [Spec.MD6.U ell 0, Spec.MD6.V q z p] ++ D) (16 * q.r)
  unfold seqAt at this
  rw [this, List.length_append, List.length_append, List.length_append]
  simp only [List.length_cons, List.length_nil, h]
  have : Spec.MD6.Q.length = 15 := rfl
  omega

theorem words_take (M : Bytes) (n : Nat) (h : 8 * n ≤ M.length) : (Spec.MD6.words M).take n = Spec.MD6.words (M.take (8 * n)) := by
  unfold Spec.MD6.words
  rw [← List.map_take, List.take_range, List.length_take]
  rw [show min n (M.length / 8) = min (8 * n) M.length / 8 from by omega]
  refine List.map_congr_left fun i hi => ?_
  rw [List.mem_range] at hi
  rw [getBE64_take (by omega)]

theorem chainNode_congr (q : Spec.MD6.Par) (ell z p : Nat) (C : List U64) (M M' : Bytes) (hC : 16 ≤ C.length) (h1 : 384 ≤ M.length) (h2 : 384 ≤ M'.length)
    (h : M.take 384 = M'.take 384) : Spec.MD6.chainNode q ell z p C M = Spec.MD6.chainNode q ell z p C M' := by
  unfold Spec.MD6.chainNode Spec.MD6.cut64
  have key : ∀ M : Bytes, 384 ≤ M.length → (C ++ Spec.MD6.words M ++ List.replicate 64 0#64).take 64 = (C ++ Spec.MD6.words (M.take 384)).take 64 := by
    intro M hM
    have hl : 48 ≤ (Spec.MD6.words M).length := by unfold Spec.MD6.words; rw [List.length_map, List.length_range]; omega
    have hl2 : (Spec.MD6.words (M.take 384)).length = 48 := by unfold Spec.MD6.words; rw [List.length_map, List.length_range, List.length_take]; omega
    have := words_take M 48 (by omega)
    rw [List.take_append_of_le_length (by rw [List.length_append]; omega), List.take_append, List.take_append, ← this, List.take_take,
      Nat.min_eq_left (by omega)]
  rw [key M h1, key M' h2, h]

theorem step_length (q : Spec.MD6.Par) (st : List U64 × Nat) (M : Bytes) : 16 ≤ (Spec.MD6.chainStep q st M).1.length := by
  have hc : ∀ l : List U64, (Spec.MD6.cut64 l).length = 64 := by
    intro l; unfold Spec.MD6.cut64; rw [List.length_take, List.length_append, List.length_replicate]; omega
  unfold Spec.MD6.chainStep
  dsimp only
  split
  · exact node_length _ _ _ _ _ (hc _)
  · exact node_length _ _ _ _ _ (hc _)

theorem fold_length (q : Spec.MD6.Par) (bs : List Bytes) (st : List U64 × Nat) (h : bs ≠ []) : 16 ≤ (bs.foldl (Spec.MD6.chainStep q) st).1.length := by
  obtain ⟨l, x, rfl⟩ := List.eq_nil_or_concat bs |>.resolve_left h
  rw [List.concat_eq_append, List.foldl_append, List.foldl_cons, List.foldl_nil]
  exact step_length _ _ _

theorem take_append_congr (M M' z : Bytes) (n : Nat) (hl : M.length = M'.length) (h : M.take n = M'.take n) : (M ++ z).take n = (M' ++ z).take n := by
  rw [List.take_append, List.take_append, h, hl]

theorem step_congr (q : Spec.MD6.Par) (st : List U64 × Nat) (M M' : Bytes) (hC : 16 ≤ st.1.length) (h1 : M.length = 512) (h2 : M'.length = 512)
    (h : M.take 384 = M'.take 384) : Spec.MD6.chainStep q st M = Spec.MD6.chainStep q st M' := by
  unfold Spec.MD6.chainStep
  rw [chainNode_congr q _ 1 0 st.1 M M' hC (by omega) (by omega) h,
    chainNode_congr q _ 0 0 st.1 (M ++ zeros 256) (M' ++ zeros 256) hC (by rw [List.length_append]; omega) (by rw [List.length_append]; omega)
      (take_append_congr _ _ _ _ (by omega) h)]

theorem last_congr (q : Spec.MD6.Par) (st : List U64 × Nat) (n : Nat) (R R' : Bytes) (hC : 16 ≤ st.1.length) (hl : R.length = R'.length)
    (hlt : R.length < 512) (h : R.take 384 = R'.take 384) : Spec.MD6.chainLast q st n R = Spec.MD6.chainLast q st n R' := by
  unfold Spec.MD6.chainLast
  have f1 : 384 ≤ R'.length + Spec.MD6.fill 384 R'.length := by unfold Spec.MD6.fill; split <;> omega
  have f2 : 384 ≤ R'.length + Spec.MD6.fill 512 R'.length := by unfold Spec.MD6.fill; split <;> omega
  rw [hl, chainNode_congr q _ 1 _ st.1 (R ++ zeros (Spec.MD6.fill 384 R'.length)) (R' ++ zeros (Spec.MD6.fill 384 R'.length)) hC
      (by rw [List.length_append, zeros_length, hl]; exact f1) (by rw [List.length_append, zeros_length]; exact f1) (take_append_congr _ _ _ _ hl h),
    chainNode_congr q _ _ _ st.1 (R ++ zeros (Spec.MD6.fill 512 R'.length)) (R' ++ zeros (Spec.MD6.fill 512 R'.length)) hC
      (by rw [List.length_append, zeros_length, hl]; exact f2) (by rw [List.length_append, zeros_length]; exact f2) (take_append_congr _ _ _ _ hl h)]

/-- The bytes that do not matter: in any block but the first, those from position 384 on. -/
theorem chain_congr (q : Spec.MD6.Par) (a M M' t : Bytes) (ha : a.length % 512 = 0) (h0 : a ≠ []) (hl : M.length = M'.length) (hM : M.length ≤ 512)
    (ht : M.length < 512 → t = []) (h : M.take 384 = M'.take 384) : Spec.MD6.chain q (a ++ M ++ t) = Spec.MD6.chain q (a ++ M' ++ t) := by
  have hab : fullBlocks 512 a ≠ [] := by
    intro hc
    have := fullBlocks_flatten_append_rest 512 a
    rw [hc, List.flatten_nil, List.nil_append] at this
    have h2 := congrArg List.length this
    rw [restBlock_length, ha] at h2
    exact h0 (List.eq_nil_of_length_eq_zero h2.symm)
  have hC := fold_length q (fullBlocks 512 a) ([], 0) hab
  unfold Spec.MD6.chain
  have hlen : (a ++ M ++ t).length = (a ++ M' ++ t).length := by simp only [List.length_append, hl]
  simp only [List.append_assoc] at hlen ⊢
  rw [fullBlocks_append 512 a _ (by omega) ha, fullBlocks_append 512 a _ (by omega) ha, restBlock_append 512 a _ (by omega) ha, restBlock_append 512 a _ (by omega) ha,
    List.foldl_append, List.foldl_append, hlen]
  by_cases hc : M.length < 512
  · have := ht hc
    subst this
    rw [List.append_nil, List.append_nil, fullBlocks_lt 512 M hc, fullBlocks_lt 512 M' (by omega), restBlock_lt 512 M hc, restBlock_lt 512 M' (by omega),
      List.foldl_nil, last_congr q _ _ M M' hC hl hc h]
  · have e : M.length = 512 := by omega
    have e' : M'.length = 512 := by omega
    rw [fullBlocks_append 512 M _ (by omega) (by omega), fullBlocks_append 512 M' _ (by omega) (by omega), restBlock_append 512 M _ (by omega) (by omega),
      restBlock_append 512 M' _ (by omega) (by omega), fullBlocks_one _ _ (by omega) e, fullBlocks_one _ _ (by omega) e',
      List.foldl_append, List.foldl_append, List.foldl_cons, List.foldl_nil, List.foldl_cons, List.foldl_nil, step_congr q _ M M' hC e e' h]

theorem chain_short (q : Spec.MD6.Par) (m : Bytes) (hm : m.length < 512) (hL : 1 ≤ q.L) : Spec.MD6.chain q m = Spec.MD6.short q m := by
  unfold Spec.MD6.chain Spec.MD6.short Spec.MD6.chainLast
  rw [fullBlocks_lt _ _ hm, restBlock_lt _ _ hm, List.foldl_nil]
  dsimp only
  rw [if_neg (by omega), if_neg (by omega)]
  have hf : Spec.MD6.fill 512 m.length = 512 - m.length := by unfold Spec.MD6.fill; split <;> omega
  unfold Spec.MD6.chainNode
  rw [hf, List.nil_append, Nat.zero_add]
  have hw : (Spec.MD6.words (m ++ zeros (512 - m.length))).length = 64 := by
    unfold Spec.MD6.words; rw [List.length_map, List.length_range, List.length_append, zeros_length]; omega
  have : Spec.MD6.cut64 (Spec.MD6.words (m ++ zeros (512 - m.length))) = Spec.MD6.words (m ++ zeros (512 - m.length)) := by
    unfold Spec.MD6.cut64; rw [List.take_left' hw]
  rw [this]

end Verif.MD6
