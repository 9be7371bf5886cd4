import Verif.Lemmas.Shabal
/-
Shabal: the digest object.
-/
namespace Verif.Shabal
open LSH (getD_set' getD_map_range ext_getD)
open Spec.Shabal (State)

def f (c : Core) (b : Bytes) : Core := coreBlock b 0 c

theorem get_at (b : Bytes) (j n i : Nat) (h : i + 4 ≤ n) : getLE32 b (j + i) = getLE32 ((b.drop j).take n) i := by
  unfold getLE32 at8
  simp only [List.getD_eq_getElem?_getD]
  rw [List.getElem?_take_of_lt (by omega), List.getElem?_take_of_lt (by omega), List.getElem?_take_of_lt (by omega), List.getElem?_take_of_lt (by omega)]
  simp only [List.getElem?_drop, Nat.add_assoc]

theorem coreBlock_at (data : Bytes) (off : Nat) (c : Core) : coreBlock data off c = f c ((data.drop off).take 64) := by
  have : loadM data off = loadM ((data.drop off).take 64) 0 := by
    rw [loadM_eq, loadM_eq]
    apply List.map_congr_left
    intro i hi
    rw [List.mem_range] at hi
    rw [get_at data off 64 (4 * i) (by omega), Nat.zero_add]
  unfold f coreBlock
  rw [this]

theorem core_eq (c : Core) (data : Bytes) : core c data (data.length / 64) = (fullBlocks 64 data).foldl f c := by
  have e : (fun s k => coreBlock data (64 * k) s) = fun s k => f s ((data.drop (k * 64)).take 64) := by
    funext s k
    rw [coreBlock_at, Nat.mul_comm]
  unfold core fullBlocks
  rw [e, List.foldl_map]
  unfold forLoop
  rw [Nat.sub_zero, ← List.range_eq_range']
theorem core_one (c : Core) (data : Bytes) (h : data.length = 64) : core c data 1 = f c data := by
  have := core_eq c data
  rw [h, fullBlocks_one 64 data (by omega) h] at this
  exact this

attribute [local irreducible] coreBlock core Spec.Shabal.block f

structure Rep (n : Nat) (s₀ : Core) (d : Digest) (m : Bytes) : Prop where
  size : d.outSizeW32 = n
  buf : BufRepr 64 f s₀ d.c d.buf d.ptr m

theorem tail_rep (n : Nat) (s₀ : Core) (d : Digest) (m p : Bytes) (hs : d.outSizeW32 = n) (h : BufRepr 64 f s₀ d.c d.buf 0 m) : Rep n s₀ (d.tail p) (m ++ p) := by
  have e : d.tail p = { d with c := (fullBlocks 64 p).foldl f d.c, buf := goCopy d.buf 0 (restBlock 64 p), ptr := 0 + (restBlock 64 p).length } := by
    unfold Digest.tail
    dsimp only
    by_cases hc : p.length / 64 > 0
    · rw [if_pos hc, if_pos hc, if_pos hc, core_eq, restBlock_length, Nat.zero_add]; rfl
    · have : p.length < 64 := by omega
      rw [if_neg hc, if_neg hc, if_neg hc, fullBlocks_lt _ _ this, restBlock_lt _ _ this, Nat.zero_add]; rfl
  rw [e]
  refine ⟨hs, ?_⟩
  have hsp : p = (p.take (p.length / 64 * 64)) ++ restBlock 64 p := (List.take_append_drop _ _).symm
  have hl : (p.take (p.length / 64 * 64)).length % 64 = 0 := by rw [List.length_take]; omega
  have h1 := h.blocks (by omega) (p.take (p.length / 64 * 64)) hl
  have hfb : fullBlocks 64 (p.take (p.length / 64 * 64)) = fullBlocks 64 p := by
    conv => rhs; rw [hsp, fullBlocks_append 64 _ _ (by omega) hl, fullBlocks_lt 64 (restBlock 64 p) (by rw [restBlock_length]; omega), List.append_nil]
  rw [hfb] at h1
  have h2 := h1.part (restBlock 64 p) (by rw [restBlock_length]; omega)
  rw [List.append_assoc, ← hsp] at h2
  exact h2

theorem write_rep (n : Nat) (s₀ : Core) (d : Digest) (m p : Bytes) (h : Rep n s₀ d m) : Rep n s₀ (d.write p) (m ++ p) := by
  have hlt := h.buf.nx_lt (by omega)
  have hxl := h.buf.xlen
  unfold Digest.write
  by_cases h0 : d.ptr ≠ 0
  · rw [if_pos h0]
    dsimp only
    by_cases hp : p.length < 64 - d.ptr
    · rw [if_pos hp]
      exact ⟨h.size, h.buf.part p (by omega)⟩
    · rw [if_neg hp]
      have htl : (p.take (64 - d.ptr)).length = 64 - d.ptr := by rw [List.length_take]; omega
      have hcl : (goCopy d.buf d.ptr (p.take (64 - d.ptr))).length = 64 := by rw [goCopy_length _ _ _ (by omega)]; exact hxl
      have h1 := h.buf.fill (p.take (64 - d.ptr)) (by omega) (by omega) _ hcl
      rw [core_one _ _ hcl]
      have := tail_rep n s₀ { d with buf := goCopy d.buf d.ptr (p.take (64 - d.ptr)), c := f d.c (goCopy d.buf d.ptr (p.take (64 - d.ptr))) } _ (p.drop (64 - d.ptr)) h.size h1
      rw [List.append_assoc, List.take_append_drop] at this
      exact this
  · rw [if_neg h0]
    have h0' : d.ptr = 0 := by omega
    have hb := h.buf
    rw [h0'] at hb
    exact tail_rep n s₀ d m p h.size hb

theorem reset_rep (n : Nat) : Rep n (reset n).c (reset n) [] := ⟨rfl, BufRepr.init _ _ _ (zeros_length 64)⟩

/-- The state after a list of blocks, the counter. -/
theorem fold_eq : ∀ (bs : List Bytes) (c : Core) (k : Nat), Wf c → c.W = BitVec.ofNat 64 (k + 1) →
    toSpec (bs.foldl f c) = (bs.zipIdx k).foldl (fun s (B, i) => Spec.Shabal.block (BitVec.ofNat 64 (i + 1)) (Spec.Shabal.words B) s) (toSpec c) ∧
    (bs.foldl f c).W = BitVec.ofNat 64 (k + bs.length + 1) ∧ Wf (bs.foldl f c)
  | [], c, k, h, hW => ⟨rfl, hW, h⟩
  | b :: bs, c, k, h, hW => by
    obtain ⟨h1, h2, h3⟩ := coreBlock_eq b 0 c h
    have hW' : (f c b).W = BitVec.ofNat 64 (k + 1 + 1) := by
      rw [show f c b = coreBlock b 0 c by unfold f; rfl, h2, hW]
      apply BitVec.eq_of_toNat_eq; simp
    obtain ⟨i1, i2, i3⟩ := fold_eq bs (f c b) (k + 1) (by unfold f; exact h3) hW'
    rw [List.foldl_cons, List.zipIdx_cons, List.foldl_cons]
    refine ⟨?_, by rw [i2, List.length_cons, show k + 1 + bs.length + 1 = k + (bs.length + 1) + 1 by omega], i3⟩
    rw [i1]
    congr 1
    have e : (fun i => getLE32 b (0 + 4 * i)) = Spec.Shabal.words b := by funext i; rw [Nat.zero_add]; rfl
    rw [e, hW] at h1
    rw [show f c b = coreBlock b 0 c by unfold f; rfl, h1]

theorem out_eq (state : List U32) (k : Nat) : ∀ j, ∃ w, forLoop 0 (4 * k) (fun (s : Nat × U32 × Bytes) i =>
    let s := if i % 4 = 0 then (s.1 + 1, g state s.1, s.2.2) else s
    (s.1, s.2.1 >>> 8, s.2.2 ++ [s.2.1.setWidth 8])) (j, 0, []) = (j + k, w, ((List.range k).map fun i => g state (j + i)).flatMap le32) := by
  induction k with
  | zero => intro j; exact ⟨0, rfl⟩
  | succ k ih =>
    intro j
    obtain ⟨w, hw⟩ := ih j
    have e4 : ∀ (v : U32), [v.setWidth 8, (v >>> 8).setWidth 8, (v >>> 8 >>> 8).setWidth 8, (v >>> 8 >>> 8 >>> 8).setWidth 8] = le32 v := by
      intro v
      unfold le32
      congr 1
    rw [show 4 * (k + 1) = 4 * k + 1 + 1 + 1 + 1 by omega, forLoop_succ _ _ _ _ (by omega), forLoop_succ _ _ _ _ (by omega), forLoop_succ _ _ _ _ (by omega), forLoop_succ _ _ _ _ (by omega), hw]
    dsimp only
    have a0 : 4 * k % 4 = 0 := by omega
    have a1 : ¬ (4 * k + 1) % 4 = 0 := by omega
    have a2 : ¬ (4 * k + 1 + 1) % 4 = 0 := by omega
    have a3 : ¬ (4 * k + 1 + 1 + 1) % 4 = 0 := by omega
    rw [if_neg a3, if_neg a2, if_neg a1, if_pos a0]
    dsimp only
    refine ⟨g state (j + k) >>> 8 >>> 8 >>> 8 >>> 8, ?_⟩
    rw [Prod.mk.injEq, Prod.mk.injEq]
    refine ⟨by omega, rfl, ?_⟩
    rw [List.range_succ, List.map_append, List.flatMap_append, List.append_assoc, List.append_assoc, List.append_assoc]
    congr 1

theorem drop_words (l : List U32) (n k : Nat) (hl : l.length = n + k) : ((List.range k).map fun i => g l (n + i)) = l.drop n := by
  apply ext_getD
  · simp [hl]
  · intro i hi
    rw [List.length_map, List.length_range] at hi
    rw [getD_map_range _ _ _ _ hi]
    unfold g
    rw [List.getD_eq_getElem?_getD, List.getD_eq_getElem?_getD, List.getElem?_drop]

theorem checkSum_eq (n : Nat) (hn : n ≤ 16) (s₀ : Core) (hw : Wf s₀) (hW : s₀.W = 1) (hiv : toSpec s₀ = Spec.Shabal.iv (32 * n)) (d : Digest) (m : Bytes) (h : Rep n s₀ d m) :
    d.checkSum = Spec.Shabal.hash (32 * n) m := by
  have hlt := h.buf.nx_lt (by omega)
  have hxl := h.buf.xlen
  have hml := h.buf.nx_eq
  have hrl : (restBlock 64 m).length = d.ptr := by rw [restBlock_length]; exact hml.symm
  have hpad : forLoop (d.ptr + 1) 64 (fun b i => b.set i 0) (d.buf.set d.ptr 0x80) = restBlock 64 m ++ 0x80 :: zeros (63 - d.ptr) := by
    rw [RadioGatun.fill_eq _ _ _ (by rw [List.length_set]; exact hxl) (by omega)]
    have : (d.buf.set d.ptr 0x80).take (d.ptr + 1) = restBlock 64 m ++ [0x80] := by
      rw [List.take_add_one, List.take_set_of_le (Nat.le_refl _), h.buf.pend]
      simp [show d.ptr < d.buf.length by omega]
    rw [this, List.append_assoc, show 64 - (d.ptr + 1) = 63 - d.ptr by omega]; rfl
  have hbl : (restBlock 64 m ++ 0x80 :: zeros (63 - d.ptr)).length = 64 := by rw [List.length_append, List.length_cons, zeros_length]; omega
  have hfb : fullBlocks 64 (mdPad 64 0x80 [] m) = fullBlocks 64 m ++ [restBlock 64 m ++ 0x80 :: zeros (63 - d.ptr)] := by
    rw [fullBlocks_mdPad_one 64 0x80 [] m (by omega) (by rw [← hml]; show d.ptr + 1 + 0 ≤ 64; omega), ← hml, List.length_nil, Nat.sub_zero, List.append_nil, show 64 - 1 - d.ptr = 63 - d.ptr by omega]
  unfold Digest.checkSum
  dsimp only
  rw [hpad, h.size, Nat.mul_div_cancel_left _ (by omega)]
  generalize restBlock 64 m ++ 0x80 :: zeros (63 - d.ptr) = L at *
  -- the four last blocks
  obtain ⟨f1, f2, f3⟩ := fold_eq (fullBlocks 64 m) s₀ 0 hw hW
  rw [← h.buf.state] at f1 f2 f3
  have hstep : ∀ c : Core, Wf c → toSpec (core c L 1) = Spec.Shabal.block c.W (Spec.Shabal.words L) (toSpec c) ∧ (core c L 1).W = c.W + 1 ∧ Wf (core c L 1) := by
    intro c hc
    rw [core_one c L hbl]
    obtain ⟨h1, h2, h3⟩ := coreBlock_eq L 0 c hc
    have e : (fun i => getLE32 L (0 + 4 * i)) = Spec.Shabal.words L := by funext i; rw [Nat.zero_add]; rfl
    rw [e] at h1
    unfold f
    exact ⟨h1, h2, h3⟩
  have hfour : ∀ k, let c := forLoop 0 k (fun c _ => let c := core c L 1; { c with W := c.W - 1 }) d.c
      toSpec c = (List.range k).foldl (fun s _ => Spec.Shabal.block d.c.W (Spec.Shabal.words L) s) (toSpec d.c) ∧ c.W = d.c.W ∧ Wf c := by
    intro k
    induction k with
    | zero => exact ⟨rfl, rfl, f3⟩
    | succ k ih =>
      dsimp only at ih ⊢
      rw [forLoop_succ _ _ _ _ (Nat.zero_le _), List.range_succ, List.foldl_append]
      generalize forLoop 0 k (fun c _ => { core c L 1 with W := (core c L 1).W - 1 }) d.c = c at *
      obtain ⟨i1, i2, i3⟩ := ih
      obtain ⟨h1, h2, h3⟩ := hstep c i3
      refine ⟨?_, ?_, ⟨h3.a, h3.b, h3.c⟩⟩
      · show toSpec (core c L 1) = _
        rw [h1, i1, i2]; rfl
      · show (core c L 1).W - 1 = _
        rw [h2, i2, BitVec.add_sub_cancel]
  obtain ⟨g1, _, g3⟩ := hfour 4
  dsimp only at g1 g3
  generalize forLoop 0 4 (fun c _ => { core c L 1 with W := (core c L 1).W - 1 }) d.c = c at *
  obtain ⟨w, ho⟩ := out_eq (c.A ++ c.B ++ c.C) n (44 - n)
  rw [ho]
  dsimp only
  rw [drop_words _ _ _ (by rw [List.length_append, List.length_append, g3.a, g3.b, g3.c]; omega), List.drop_append, List.length_append, g3.a, g3.b, List.drop_eq_nil_of_le (by rw [List.length_append, g3.a, g3.b]; omega), List.nil_append]
  unfold Spec.Shabal.hash
  dsimp only
  rw [hfb, List.zipIdx_append, List.foldl_append, List.getLastD_eq_getLast?, List.getLast?_concat, List.length_append, Option.getD_some, List.length_singleton, ← hiv, ← f1, Nat.mul_div_cancel_left _ (by omega)]
  rw [Nat.zero_add] at f2
  rw [List.zipIdx_cons, List.zipIdx_nil, List.foldl_cons, List.foldl_nil, Nat.zero_add, ← f2]
  have : c.C = (toSpec c).C := rfl
  rw [this, g1, show 44 - n - (12 + 16) = 16 - n by omega]
  rfl

end Verif.Shabal
