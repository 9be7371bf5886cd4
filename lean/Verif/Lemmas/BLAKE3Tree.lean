import Verif.Lemmas.BLAKE3Chunk
/-
Subtrees of package blake3.
-/
namespace Verif.BLAKE3
open Verif.Spec

theorem tree_chunk (key : List U32) (fl : Byte) (t : Nat) (m : Bytes) (h : m.length ≤ 1024) :
    BLAKE3.tree key fl t m = BLAKE3.chunk key fl t m := by
  unfold BLAKE3.tree; rw [dif_pos h]

theorem leftLen_eq {n k : Nat} (h1 : 1024 * 2 ^ k < n) (h2 : n ≤ 1024 * 2 ^ (k + 1)) : BLAKE3.leftLen n = 1024 * 2 ^ k := by
  have hp := Nat.two_pow_pos k
  have hq : 2 ^ k ≤ (n - 1) / 1024 := by rw [Nat.le_div_iff_mul_le (by decide)]; omega
  have hq2 : (n - 1) / 1024 < 2 ^ (k + 1) := by rw [Nat.div_lt_iff_lt_mul (by decide)]; omega
  unfold BLAKE3.leftLen
  rw [(Nat.log2_eq_iff (by omega)).mpr ⟨hq, hq2⟩]

/-- The tree over a full left subtree and a right part that is not larger. -/
theorem tree_split (key : List U32) (fl : Byte) (t k : Nat) (x y : Bytes) (hx : x.length = 1024 * 2 ^ k) (hy : y ≠ [])
    (hle : y.length ≤ x.length) : BLAKE3.tree key fl t (x ++ y) =
      BLAKE3.parent key fl (BLAKE3.tree key fl t x).cv (BLAKE3.tree key fl (t + 2 ^ k) y).cv := by
  have hyl := List.length_pos_iff.mpr hy
  have hp := Nat.two_pow_pos k
  have hl : BLAKE3.leftLen (x ++ y).length = x.length := by
    rw [leftLen_eq (k := k), hx]
    · rw [List.length_append]; omega
    · rw [List.length_append, Nat.pow_succ]; omega
  rw [BLAKE3.tree, dif_neg (by rw [List.length_append]; omega), hl, List.take_left, List.drop_left, hx, Nat.mul_div_cancel_left _ (by decide)]

theorem tree_h_length (key : List U32) (fl : Byte) (hk : key.length = 8) (t : Nat) (m : Bytes) : (BLAKE3.tree key fl t m).h.length = 8 := by
  unfold BLAKE3.tree
  split
  · exact chunkBlocks_length _ _ _ hk _
  · exact hk

theorem tree_cv_length (key : List U32) (fl : Byte) (hk : key.length = 8) (t : Nat) (m : Bytes) : (BLAKE3.tree key fl t m).cv.length = 32 :=
  cv_length (tree_h_length key fl hk t m)

theorem left_len_eq {n : Nat} (h : 1024 < n) (h64 : n < 2 ^ 64) : left_len n = BLAKE3.leftLen n := by
  unfold left_len BLAKE3.leftLen
  rw [round_down_eq _ (by omega) (by omega), Nat.mul_comm]

/-- The blocks before the last one of a full chunk. -/
def blk (m : Bytes) (i : Nat) : Bytes := (m.drop (i * 64)).take 64

theorem initBlocks_full (m : Bytes) (h : m.length = 1024) : initBlocks 64 m = (List.range 15).map (blk m) := by
  unfold initBlocks fullBlocks
  rw [h]
  have e : (m.take ((1024 - 1) / 64 * 64)).length / 64 = 15 := by rw [List.length_take, h]; rfl
  rw [e]
  refine List.map_congr_left fun i hi => ?_
  rw [List.mem_range] at hi
  unfold blk
  rw [List.drop_take, List.take_take, Nat.min_eq_left (by omega)]

theorem lastBlock_full (m : Bytes) (h : m.length = 1024) : lastBlock 64 m = blk m 15 := by
  unfold lastBlock blk
  rw [h, List.take_of_length_le (by rw [List.length_drop, h]; decide)]

theorem blk_length (m : Bytes) (h : m.length = 1024) (i : Nat) (hi : i < 16) : (blk m i).length = 64 := by
  unfold blk; rw [List.length_take, List.length_drop, h]; omega

theorem chunk_full (key : List U32) (fl : Byte) (t : Nat) (m : Bytes) (h : m.length = 1024) : BLAKE3.chunk key fl t m =
    ⟨BLAKE3.chunkBlocks key fl t ((List.range 15).map (blk m)), blk m 15, t, fl ||| BLAKE3.startFlag 15 ||| BLAKE3.CHUNK_END⟩ := by
  unfold BLAKE3.chunk
  rw [initBlocks_full m h, lastBlock_full m h, List.length_map, List.length_range]
  rfl

theorem hashOneLoop_chunk (key : List U32) (fl : Byte) (t : Nat) (m : Bytes) (hk : key.length = 8) (hm : m.length = 1024) :
    ∀ (k i : Nat), i + k = 15 →
    hashOneLoop m (BitVec.ofNat 64 t) fl CHUNK_END (k + 1) i (BLAKE3.chunkBlocks key fl t ((List.range i).map (blk m)))
      (fl ||| BLAKE3.startFlag i) =
    (BLAKE3.compress (BLAKE3.chunk key fl t m).h (BLAKE3.chunk key fl t m).block 64 (BitVec.ofNat 64 t) (BLAKE3.chunk key fl t m).f).take 8 := by
  intro k
  induction k with
  | zero =>
    intro i hi
    have hi : i = 15 := by omega
    subst hi
    unfold hashOneLoop
    rw [if_pos (show (0 : Nat) + 1 = 1 from rfl)]
    unfold hashOneLoop
    have e : (List.take 64 (List.drop (15 * 64) m)).length = 64 := blk_length m hm 15 (by decide)
    dsimp only
    rw [goCopy_block _ e, compress_in_place_eq _ _ _ _ _ (chunkBlocks_length _ _ _ hk _)]
    rw [chunk_full key fl t m hm, show (64#8).toNat = 64 from rfl, show CHUNK_END = BLAKE3.CHUNK_END from rfl,
      show List.take 64 (List.drop (15 * 64) m) = blk m 15 from rfl]
  | succ k ih =>
    intro i hi
    unfold hashOneLoop
    rw [if_neg (by omega)]
    have e : (List.take 64 (List.drop (i * 64) m)).length = 64 := blk_length m hm i (by omega)
    dsimp only
    rw [goCopy_block _ e, compress_in_place_eq _ _ _ _ _ (chunkBlocks_length _ _ _ hk _)]
    rw [← ih (i + 1) (by omega), List.range_succ, List.map_append, List.map_singleton, chunkBlocks_snoc, List.length_map, List.length_range]
    have : fl ||| BLAKE3.startFlag (i + 1) = fl := by unfold BLAKE3.startFlag; rw [if_neg (by omega)]; exact BitVec.or_zero
    rw [this]
    rfl

theorem hash_one_chunk (key : List U32) (fl : Byte) (t : Nat) (m : Bytes) (hk : key.length = 8) (hm : m.length = 1024) :
    hash_one m (1024 / 64) key (BitVec.ofNat 64 t) fl CHUNK_START CHUNK_END = (BLAKE3.chunk key fl t m).cv := by
  unfold hash_one BLAKE3.Node.cv uint32sToBytes
  have hbl : (BLAKE3.chunk key fl t m).block.length = 64 := by
    show (lastBlock 64 m).length = 64
    rw [lastBlock_full m hm]; exact blk_length m hm 15 (by decide)
  have ht : (BLAKE3.chunk key fl t m).t = t := rfl
  rw [hbl, ht]
  exact congrArg (fun z => List.flatMap le32 z) (hashOneLoop_chunk key fl t m hk hm 15 0 rfl)

theorem hash_one_parent (key : List U32) (fl : Byte) (l r : Bytes) (hk : key.length = 8) (h : (l ++ r).length = 64) :
    hash_one (l ++ r) 1 key 0#64 (fl ||| PARENT) 0#8 0#8 = (BLAKE3.parent key fl l r).cv := by
  unfold hash_one BLAKE3.Node.cv uint32sToBytes hashOneLoop
  rw [if_pos (show (0 : Nat) + 1 = 1 from rfl)]
  unfold hashOneLoop
  have e : List.take 64 (List.drop (0 * 64) (l ++ r)) = l ++ r := by
    rw [Nat.zero_mul, List.drop_zero, List.take_of_length_le (by omega)]
  rw [e, goCopy_block _ h, compress_in_place_eq _ _ _ _ _ hk, BitVec.or_zero, BitVec.or_zero]
  have hb : (BLAKE3.parent key fl l r).block.length = 64 := h
  rw [hb]
  rfl

theorem fresh_cv {key : List U32} {fl : Byte} {t : Nat} {cs : ChunkState} (hk : key.length = 8) (h : CRepr key fl t cs []) (m : Bytes) (hm : m.length ≤ 1024) :
    (cs.update m).output.chainingValue = (BLAKE3.chunk key fl t m).cv := by
  have hu := h.update hk m hm
  rw [List.nil_append] at hu
  exact (hu.output hk hm).cv

theorem chunks_parallel_eq (key : List U32) (fl : Byte) (t : Nat) (m : Bytes) (hk : key.length = 8) (h0 : 0 < m.length) (h : m.length ≤ 1024) :
    compress_chunks_parallel m key (BitVec.ofNat 64 t) fl = ((BLAKE3.tree key fl t m).cv, 1) := by
  rw [tree_chunk _ _ _ _ h]
  unfold compress_chunks_parallel
  by_cases hf : m.length = 1024
  · have e : chunksOf m.length m = ([m], []) := by
      rw [hf]
      unfold chunksOf
      rw [if_pos (by omega), List.drop_of_length_le (by omega), List.take_of_length_le (by omega)]
      unfold chunksOf
      rw [if_neg (by simp)]
    rw [e]
    dsimp only
    rw [if_neg (by simp)]
    simp only [hash_many, List.append_nil, List.length_singleton]
    rw [hash_one_chunk _ _ _ _ hk hf]
  · have e : chunksOf m.length m = ([], m) := by
      obtain ⟨n, hn⟩ := Nat.exists_eq_succ_of_ne_zero (show m.length ≠ 0 by omega)
      rw [hn]
      unfold chunksOf
      rw [if_neg (by omega)]
    rw [e]
    dsimp only
    rw [if_pos (by omega)]
    have hc : CRepr key fl t { newChunkState key fl with chunk_counter := BitVec.ofNat 64 t + BitVec.ofNat 64 0 } [] :=
      CRepr.fresh _ _ _ _ rfl (by simp) rfl rfl rfl rfl
    have ho := fresh_cv hk hc m h
    rw [List.length_nil, ho]
    simp only [hash_many, List.nil_append]

theorem goCopy_two (a b : Bytes) (n N : Nat) (ha : a.length = n) (hb : b.length = n) (hn : 2 * n ≤ N) :
    goCopy (goCopy (zeros N) 0 a) n b = a ++ b ++ zeros (N - 2 * n) := by
  have e1 : goCopy (zeros N) 0 a = a ++ zeros (N - n) := by
    unfold goCopy
    rw [List.take_zero, List.nil_append, zeros_length, List.take_of_length_le (by omega), Nat.zero_add, ha]
    unfold zeros; rw [List.drop_replicate]
  rw [e1]
  unfold goCopy
  rw [List.take_left' ha, List.length_append, zeros_length, List.take_of_length_le (by omega), hb, List.drop_append, ha,
    List.drop_of_length_le (by omega), List.nil_append]
  unfold zeros
  rw [List.drop_replicate]
  congr 2; omega

theorem cv_array_two (a b : Bytes) (n : Nat) (ha : a.length = n) (hb : b.length = n) (hn : 2 * n ≤ 128) :
    goCopy (goCopy (zeros 128) 0 a) n b = a ++ b ++ zeros (128 - 2 * n) := goCopy_two a b n 128 ha hb hn

/-- The two halves of a full subtree. -/
theorem wide_eq (key : List U32) (fl : Byte) (hk : key.length = 8) : ∀ (j fuel t : Nat) (m : Bytes), m.length = 1024 * 2 ^ j → j ≤ fuel → m.length < 2 ^ 64 →
    compress_subtree_wide key fl fuel m (BitVec.ofNat 64 t) =
      (if j = 0 then ((BLAKE3.tree key fl t m).cv, 1)
       else ((BLAKE3.tree key fl t (m.take (1024 * 2 ^ (j - 1)))).cv ++
        (BLAKE3.tree key fl (t + 2 ^ (j - 1)) (m.drop (1024 * 2 ^ (j - 1)))).cv, 2)) := by
  intro j
  induction j with
  | zero =>
    intro fuel t m hm _ _
    have hm : m.length = 1024 := by omega
    rw [if_pos rfl]
    cases fuel with
    | zero => unfold compress_subtree_wide; exact chunks_parallel_eq key fl t m hk (by omega) (by omega)
    | succ fuel =>
      unfold compress_subtree_wide
      rw [if_pos (by omega)]
      exact chunks_parallel_eq key fl t m hk (by omega) (by omega)
  | succ j ih =>
    intro fuel t m hm hf h64
    rw [if_neg (by omega), Nat.add_sub_cancel]
    have hp := Nat.two_pow_pos j
    rw [Nat.pow_succ] at hm
    cases fuel with
    | zero => omega
    | succ fuel =>
      have hL : left_len m.length = 1024 * 2 ^ j := by
        rw [left_len_eq (by omega) h64, leftLen_eq (k := j) (by omega) (by rw [Nat.pow_succ]; omega)]
      have hl1 : (m.take (1024 * 2 ^ j)).length = 1024 * 2 ^ j := by rw [List.length_take]; omega
      have hl2 : (m.drop (1024 * 2 ^ j)).length = 1024 * 2 ^ j := by rw [List.length_drop]; omega
      have i1 := ih fuel t (m.take (1024 * 2 ^ j)) hl1 (by omega) (by omega)
      have i2 := ih fuel (t + 2 ^ j) (m.drop (1024 * 2 ^ j)) hl2 (by omega) (by omega)
      have hc : BitVec.ofNat 64 t + BitVec.ofNat 64 (1024 * 2 ^ j / 1024) = BitVec.ofNat 64 (t + 2 ^ j) := by
        rw [Nat.mul_div_cancel_left _ (by decide), BitVec.ofNat_add]
      unfold compress_subtree_wide
      rw [if_neg (by omega)]
      dsimp only
      rw [hL, hc]
      cases j with
      | zero =>
        rw [if_pos rfl] at i1 i2
        rw [i1, i2]
        dsimp only
        rw [if_pos (show (1 : Nat) = 1 from rfl), if_neg (by omega)]
        rw [cv_array_two _ _ (1 * 32) (tree_cv_length _ _ hk _ _) (tree_cv_length _ _ hk _ _) (by decide)]
        rw [List.take_left' (by rw [List.length_append, tree_cv_length _ _ hk, tree_cv_length _ _ hk])]
      | succ j =>
        have hp := Nat.two_pow_pos j
        have hpp : 2 ^ (j + 1) = 2 * 2 ^ j := by rw [Nat.pow_succ]; omega
        rw [if_neg (by omega), Nat.add_sub_cancel] at i1 i2
        rw [i1, i2]
        dsimp only
        rw [if_neg (show ¬ (2 : Nat) = 1 by decide), if_pos (by omega)]
        generalize hA : m.take (1024 * 2 ^ (j + 1)) = A at hl1 ⊢
        generalize hB : m.drop (1024 * 2 ^ (j + 1)) = B at hl2 ⊢
        have sp : ∀ (u : Nat) (x : Bytes), x.length = 1024 * 2 ^ (j + 1) → BLAKE3.parent key fl (BLAKE3.tree key fl u (x.take (1024 * 2 ^ j))).cv
            (BLAKE3.tree key fl (u + 2 ^ j) (x.drop (1024 * 2 ^ j))).cv = BLAKE3.tree key fl u x := by
          intro u x hx
          rw [hpp] at hx
          rw [← tree_split key fl u j, List.take_append_drop]
          · rw [List.length_take]; omega
          · intro e; have := congrArg List.length e; rw [List.length_drop, List.length_nil] at this; omega
          · rw [List.length_take, List.length_drop]; omega
        have c1 := tree_cv_length key fl hk t (A.take (1024 * 2 ^ j))
        have c2 := tree_cv_length key fl hk (t + 2 ^ j) (A.drop (1024 * 2 ^ j))
        have c3 := tree_cv_length key fl hk (t + 2 ^ (j + 1)) (B.take (1024 * 2 ^ j))
        have c4 := tree_cv_length key fl hk (t + 2 ^ (j + 1) + 2 ^ j) (B.drop (1024 * 2 ^ j))
        have s1 := sp t A hl1
        have s2 := sp (t + 2 ^ (j + 1)) B hl2
        rw [← s1, ← s2]
        generalize (BLAKE3.tree key fl t (A.take (1024 * 2 ^ j))).cv = w1 at c1 ⊢
        generalize (BLAKE3.tree key fl (t + 2 ^ j) (A.drop (1024 * 2 ^ j))).cv = w2 at c2 ⊢
        generalize (BLAKE3.tree key fl (t + 2 ^ (j + 1)) (B.take (1024 * 2 ^ j))).cv = w3 at c3 ⊢
        generalize (BLAKE3.tree key fl (t + 2 ^ (j + 1) + 2 ^ j) (B.drop (1024 * 2 ^ j))).cv = w4 at c4 ⊢
        rw [cv_array_two (w1 ++ w2) (w3 ++ w4) (2 * 32) (by rw [List.length_append]; omega) (by rw [List.length_append]; omega) (by decide)]
        unfold compress_parents_parallel
        have hz : zeros (128 - 2 * (2 * 32)) = [] := rfl
        have h12 : (w1 ++ w2).length = 64 := by rw [List.length_append]; omega
        have h34 : (w3 ++ w4).length = 64 := by rw [List.length_append]; omega
        have hr : (List.range ((2 + 2) / 2)).map (fun i => goCopy (zeros 64) 0 (((w1 ++ w2 ++ (w3 ++ w4)).drop (64 * i)).take 64)) = [w1 ++ w2, w3 ++ w4] := by
          show [_, _] = _
          dsimp only
          rw [Nat.mul_zero, List.drop_zero, List.take_left' h12, Nat.mul_one, List.drop_left' h12, List.take_of_length_le (l := w3 ++ w4) (by omega),
            goCopy_block _ h12, goCopy_block _ h34]
        rw [hz, List.append_nil, hr]
        dsimp only
        rw [if_neg (by simp)]
        simp only [hash_many]
        have q1 := hash_one_parent key fl w1 w2 hk h12
        have q2 := hash_one_parent key fl w3 w4 hk h34
        refine Prod.ext ?_ rfl
        dsimp only
        rw [List.append_nil]
        exact congr (congrArg _ q1) q2

theorem parent_node_eq (key : List U32) (fl : Byte) (hk : key.length = 8) (j t : Nat) (m : Bytes) (hm : m.length = 1024 * 2 ^ (j + 1)) (h64 : m.length < 2 ^ 64) :
    compress_subtree_to_parent_node m key (BitVec.ofNat 64 t) fl =
      (BLAKE3.tree key fl t (m.take (1024 * 2 ^ j))).cv ++ (BLAKE3.tree key fl (t + 2 ^ j) (m.drop (1024 * 2 ^ j))).cv := by
  unfold compress_subtree_to_parent_node
  have hj : j + 1 ≤ m.length := by
    have := Nat.lt_two_pow_self (n := j + 1); omega
  rw [wide_eq key fl hk (j + 1) m.length t m hm hj h64, if_neg (by omega), Nat.add_sub_cancel]
  dsimp only
  rw [List.take_of_length_le, goCopy_block]
  all_goals rw [List.length_append, tree_cv_length _ _ hk, tree_cv_length _ _ hk]
  decide

end Verif.BLAKE3
