import Verif.Lemmas.BLAKE3Compress
import Verif.Lemmas.BLAKE3Bits
/-
Chunks of package blake3.
-/
namespace Verif.BLAKE3
open Verif.Spec (BLAKE3.chunkBlocks BLAKE3.compress BLAKE3.startFlag BLAKE3.tree BLAKE3.chunk BLAKE3.Node.cv BLAKE3.parent)
open Verif.Spec

theorem chunkBlocks_snoc (key : List U32) (fl : Byte) (t : Nat) (bs : List Bytes) (b : Bytes) :
    BLAKE3.chunkBlocks key fl t (bs ++ [b]) =
      (BLAKE3.compress (BLAKE3.chunkBlocks key fl t bs) b 64 (BitVec.ofNat 64 t) (fl ||| BLAKE3.startFlag bs.length)).take 8 := by
  unfold BLAKE3.chunkBlocks
  rw [List.zipIdx_append, List.foldl_append]
  simp

theorem chunkBlocks_length (key : List U32) (fl : Byte) (t : Nat) (hk : key.length = 8) (bs : List Bytes) :
    (BLAKE3.chunkBlocks key fl t bs).length = 8 := by
  unfold BLAKE3.chunkBlocks
  generalize bs.zipIdx = l
  induction l generalizing key with
  | nil => exact hk
  | cons a l ih =>
    rw [List.foldl_cons]
    refine ih _ ?_
    rw [List.length_take, compress_length _ _ _ _ _ hk]; rfl

/-- A chunk state that has compressed the blocks `bs`. -/
structure Core (key : List U32) (fl : Byte) (t : Nat) (cs : ChunkState) (bs : List Bytes) : Prop where
  cv : cs.cv = BLAKE3.chunkBlocks key fl t bs
  ctr : cs.chunk_counter = BitVec.ofNat 64 t
  blocks : cs.blocks_compressed = BitVec.ofNat 8 bs.length
  flags : cs.flags = fl

theorem startFlag_eq {key : List U32} {fl : Byte} {t : Nat} {cs : ChunkState} {bs : List Bytes} (h : Core key fl t cs bs)
    (hb : bs.length < 256) : cs.maybeStartFlag = BLAKE3.startFlag bs.length := by
  unfold ChunkState.maybeStartFlag BLAKE3.startFlag
  rw [h.blocks]
  by_cases h0 : bs.length = 0
  · rw [h0]; rfl
  · rw [if_neg h0, if_neg]
    · intro e
      have := congrArg BitVec.toNat e
      rw [BitVec.toNat_ofNat, Nat.mod_eq_of_lt hb] at this
      exact h0 this

theorem Core.step {key : List U32} {fl : Byte} {t : Nat} {cs : ChunkState} {bs : List Bytes} (hk : key.length = 8)
    (h : Core key fl t cs bs) (hb : bs.length < 16) (b : Bytes) : Core key fl t (cs.block b) (bs ++ [b]) := by
  constructor
  · show compress_in_place _ _ _ _ _ = _
    rw [chunkBlocks_snoc, compress_in_place_eq _ _ _ _ _ (by rw [h.cv]; exact chunkBlocks_length _ _ _ hk _), startFlag_eq h (by omega), h.cv, h.ctr, h.flags]
    rfl
  · exact h.ctr
  · show cs.blocks_compressed + 1 = _
    rw [h.blocks, List.length_append]
    exact (BitVec.ofNat_add ..).symm
  · exact h.flags

theorem block_buf (cs : ChunkState) (b : Bytes) : (cs.block b).buf = cs.buf ∧ (cs.block b).buf_len = cs.buf_len := ⟨rfl, rfl⟩

theorem Core.fold {key : List U32} {fl : Byte} {t : Nat} (hk : key.length = 8) : ∀ (l : List Bytes) {cs : ChunkState} {bs : List Bytes},
    Core key fl t cs bs → bs.length + l.length ≤ 16 →
    Core key fl t (l.foldl ChunkState.block cs) (bs ++ l) ∧ (l.foldl ChunkState.block cs).buf = cs.buf ∧ (l.foldl ChunkState.block cs).buf_len = cs.buf_len
  | [], cs, bs, h, _ => by rw [List.append_nil]; exact ⟨h, rfl, rfl⟩
  | b :: l, cs, bs, h, hl => by
    simp only [List.length_cons] at hl
    obtain ⟨a, c, d⟩ := Core.fold hk l (h.step hk (by omega) b) (by rw [List.length_append]; simp only [List.length_cons, List.length_nil]; omega)
    rw [List.append_assoc] at a
    exact ⟨a, c, d⟩

theorem goCopy_block (b : Bytes) (h : b.length = 64) : goCopy (zeros 64) 0 b = b := by
  unfold goCopy
  simp [h, zeros]
  rw [← h]; exact List.take_length

theorem loop_eq : ∀ (fuel : Nat) (cs : ChunkState) (p : Bytes), ChunkState.loop fuel cs p = lazyLoop 64 ChunkState.block fuel cs p
  | 0, _, _ => rfl
  | fuel + 1, cs, p => by
    unfold ChunkState.loop lazyLoop
    by_cases h : 64 < p.length
    · rw [if_pos h, if_pos h, goCopy_block _ (by rw [List.length_take]; omega), loop_eq fuel]
    · rw [if_neg h, if_neg h]

/-- A chunk state that has been given the bytes `m` of chunk `t`. -/
structure CRepr (key : List U32) (fl : Byte) (t : Nat) (cs : ChunkState) (m : Bytes) : Prop where
  core : Core key fl t cs (initBlocks 64 m)
  buf : cs.buf = lastBlock 64 m ++ zeros (64 - (lastBlock 64 m).length)
  len : cs.buf_len = BitVec.ofNat 8 (lastBlock 64 m).length

theorem fill_small {cs : ChunkState} {r p : Bytes} (hb : cs.buf = r ++ zeros (64 - r.length)) (hl : cs.buf_len = BitVec.ofNat 8 r.length)
    (h : r.length + p.length ≤ 64) :
    cs.fillBuf p = ({ cs with buf := (r ++ p) ++ zeros (64 - (r ++ p).length), buf_len := BitVec.ofNat 8 (r ++ p).length }, p.length) := by
  have hn : cs.buf_len.toNat = r.length := by rw [hl, BitVec.toNat_ofNat, Nat.mod_eq_of_lt (by omega)]
  have ht : (if 64 - r.length > p.length then p.length else 64 - r.length) = p.length := by
    split <;> omega
  unfold ChunkState.fillBuf
  dsimp only
  rw [hn, ht, List.take_length]
  have e1 : goCopy cs.buf r.length p = (r ++ p) ++ zeros (64 - (r ++ p).length) := by
    unfold goCopy
    rw [hb, List.take_left, List.length_append, zeros_length, show r.length + (64 - r.length) - r.length = 64 - r.length by omega,
      List.take_of_length_le (l := p) (by omega), List.drop_append, List.drop_of_length_le (l := r) (by omega), List.nil_append, List.length_append]
    congr 1
    unfold zeros
    rw [List.drop_replicate]
    congr 1
    omega
  have e2 : cs.buf_len + BitVec.ofNat 8 p.length = BitVec.ofNat 8 (r ++ p).length := by
    rw [hl, List.length_append, BitVec.ofNat_add]
  rw [e1, e2]

theorem fill_big {cs : ChunkState} {r p : Bytes} (hb : cs.buf = r ++ zeros (64 - r.length)) (hl : cs.buf_len = BitVec.ofNat 8 r.length)
    (hr : r.length ≤ 64) (h : 64 < r.length + p.length) :
    cs.fillBuf p = ({ cs with buf := r ++ p.take (64 - r.length), buf_len := 64#8 }, 64 - r.length) := by
  have hlt : (p.take (64 - r.length)).length = 64 - r.length := by rw [List.length_take]; omega
  have := fill_small (p := p.take (64 - r.length)) hb hl (by omega)
  have hn : cs.buf_len.toNat = r.length := by rw [hl, BitVec.toNat_ofNat, Nat.mod_eq_of_lt (by omega)]
  have e : cs.fillBuf p = cs.fillBuf (p.take (64 - r.length)) := by
    unfold ChunkState.fillBuf
    dsimp only
    rw [hn, hlt, if_neg (by omega), if_neg (by omega), List.take_take, Nat.min_self]
  rw [e, this, hlt, List.length_append, hlt, show r.length + (64 - r.length) = 64 by omega, Nat.sub_self]
  simp [zeros]

theorem initBlocks_length (m : Bytes) : (initBlocks 64 m).length = (m.length - 1) / 64 := by
  unfold initBlocks
  rw [fullBlocks_length, List.length_take, Nat.min_eq_left, Nat.mul_div_cancel _ (by decide)]
  have := Nat.div_mul_le_self (m.length - 1) 64; omega

theorem lastBlock_length_eq (m : Bytes) : (lastBlock 64 m).length = m.length - (m.length - 1) / 64 * 64 := by
  unfold lastBlock; rw [List.length_drop]

theorem cs_length {key : List U32} {fl : Byte} {t : Nat} {cs : ChunkState} {m : Bytes} (h : CRepr key fl t cs m) (hm : m.length ≤ 1024) :
    cs.length = m.length := by
  unfold ChunkState.length
  have h1 := initBlocks_length m
  have h2 := lastBlock_length_eq m
  have h3 := (lastBlock_length 64 m (by decide)).1
  have hd := Nat.div_mul_le_self (m.length - 1) 64
  rw [h.core.blocks, h.len, BitVec.toNat_ofNat, BitVec.toNat_ofNat, Nat.mod_eq_of_lt (by omega), Nat.mod_eq_of_lt (by omega)]
  omega

/-- The rest of `update` once no full block is pending. -/
theorem update_rest {key : List U32} {fl : Byte} {t : Nat} (hk : key.length = 8) {cs : ChunkState} {bs : List Bytes} (p : Bytes)
    (hc : Core key fl t cs bs) (hb : cs.buf = zeros 64) (hl : cs.buf_len = 0#8) (hn : bs.length + (p.length - 1) / 64 ≤ 16) :
    let r := ChunkState.loop p.length cs p
    let s := (r.1.fillBuf r.2).1
    Core key fl t s (bs ++ initBlocks 64 p) ∧ s.buf = lastBlock 64 p ++ zeros (64 - (lastBlock 64 p).length) ∧
      s.buf_len = BitVec.ofNat 8 (lastBlock 64 p).length := by
  rw [loop_eq, lazyLoop_spec _ (by decide) _ _ _ (Nat.le_refl _)]
  dsimp only
  obtain ⟨c1, c2, c3⟩ := Core.fold hk (initBlocks 64 p) hc (by rw [initBlocks_length]; exact hn)
  have hll := (lastBlock_length 64 p (by decide)).1
  rw [fill_small (r := []) (p := lastBlock 64 p) (by rw [c2, hb]; rfl) (by rw [c3, hl]; rfl) (by simpa using hll)]
  exact ⟨⟨c1.cv, c1.ctr, c1.blocks, c1.flags⟩, by simp, by simp⟩

theorem lastBlock_nil_iff {m : Bytes} (h : (lastBlock 64 m).length = 0) : m = [] := by
  by_cases hm : m = []
  · exact hm
  · have := (lastBlock_length 64 m (by decide)).2 hm; omega

theorem CRepr.update {key : List U32} {fl : Byte} {t : Nat} (hk : key.length = 8) {cs : ChunkState} {m : Bytes} (p : Bytes)
    (h : CRepr key fl t cs m) (hn : (m ++ p).length ≤ 1024) : CRepr key fl t (cs.update p) (m ++ p) := by
  have hll := (lastBlock_length 64 m (by decide)).1
  have hbl : cs.buf_len.toNat = (lastBlock 64 m).length := by
    rw [h.len, BitVec.toNat_ofNat, Nat.mod_eq_of_lt (by omega)]
  rw [List.length_append] at hn
  have hib := initBlocks_length m
  unfold ChunkState.update
  by_cases h0 : (lastBlock 64 m).length = 0
  · have hm := lastBlock_nil_iff h0
    subst hm
    have e : cs.pending p = (cs, p) := by unfold ChunkState.pending; rw [if_neg (by omega)]
    rw [e]
    dsimp only
    have hb : cs.buf = zeros 64 := by rw [h.buf]; rfl
    obtain ⟨a, b, c⟩ := update_rest hk p h.core hb (by rw [h.len]; rfl) (by simp only [List.length_nil] at hn hib; omega)
    exact ⟨by simpa [initBlocks, fullBlocks_nil] using a, b, c⟩
  · by_cases hs : (lastBlock 64 m).length + p.length ≤ 64
    · have hf := fill_small h.buf h.len hs
      have e : cs.pending p = ({ cs with buf := (lastBlock 64 m ++ p) ++ zeros (64 - (lastBlock 64 m ++ p).length), buf_len := BitVec.ofNat 8 (lastBlock 64 m ++ p).length }, []) := by
        unfold ChunkState.pending
        rw [if_pos (by omega), hf]
        dsimp only
        rw [List.drop_length, if_neg (by simp)]
      rw [e]
      dsimp only [List.length_nil, ChunkState.loop]
      rw [fill_small (r := lastBlock 64 m ++ p) (p := []) rfl rfl (by rw [List.length_append]; simpa using hs)]
      obtain ⟨l1, l2⟩ := lazy_small (B := 64) (by decide) hs
      dsimp only
      rw [List.append_nil]
      exact ⟨⟨by rw [l1]; exact h.core.cv, h.core.ctr, by rw [l1]; exact h.core.blocks, h.core.flags⟩, by rw [l2], by rw [l2]⟩
    · have hs' : 64 < (lastBlock 64 m).length + p.length := by omega
      obtain ⟨l1, l2⟩ := lazy_big (B := 64) (m := m) (p := p) (by decide) hs'
      have hf := fill_big h.buf h.len hll hs'
      have hdl : (p.drop (64 - (lastBlock 64 m).length)).length = p.length - (64 - (lastBlock 64 m).length) := List.length_drop
      have hib2 := initBlocks_length (m ++ p)
      rw [l1, List.length_append, List.length_cons, initBlocks_length, initBlocks_length, List.length_append, hdl] at hib2
      unfold ChunkState.pending
      rw [if_pos (by omega), hf]
      dsimp only
      rw [if_pos (by omega)]
      have hst := Core.step (cs := { cs with buf := lastBlock 64 m ++ p.take (64 - (lastBlock 64 m).length), buf_len := 64#8 }) hk
        ⟨h.core.cv, h.core.ctr, h.core.blocks, h.core.flags⟩ (by omega) (lastBlock 64 m ++ p.take (64 - (lastBlock 64 m).length))
      obtain ⟨a, b, c⟩ := update_rest (cs := { ({ cs with buf := lastBlock 64 m ++ p.take (64 - (lastBlock 64 m).length), buf_len := 64#8 } : ChunkState).block (lastBlock 64 m ++ p.take (64 - (lastBlock 64 m).length)) with buf_len := 0#8, buf := zeros 64 })
        hk (p.drop (64 - (lastBlock 64 m).length)) ⟨hst.cv, hst.ctr, hst.blocks, hst.flags⟩ rfl rfl (by
          rw [List.length_append, List.length_singleton, initBlocks_length, hdl]; omega)
      refine ⟨?_, ?_, ?_⟩
      · rw [l1]
        rw [List.append_assoc] at a
        exact a
      · rw [l2]; exact b
      · rw [l2]; exact c

theorem CRepr.fresh (key : List U32) (fl : Byte) (t : Nat) (cs : ChunkState) (h1 : cs.cv = key) (h2 : cs.chunk_counter = BitVec.ofNat 64 t)
    (h3 : cs.buf = zeros 64) (h4 : cs.buf_len = 0#8) (h5 : cs.blocks_compressed = 0#8) (h6 : cs.flags = fl) : CRepr key fl t cs [] :=
  ⟨⟨h1, h2, h5, h6⟩, h3, h4⟩

/-- A node as the code's `output`. -/
structure ORepr (o : Output) (n : BLAKE3.Node) : Prop where
  h : o.input_cv = n.h
  hl : n.h.length = 8
  block : o.block = n.block ++ zeros (64 - n.block.length)
  bl : n.block.length ≤ 64
  len : o.block_len = BitVec.ofNat 8 n.block.length
  ctr : o.counter = BitVec.ofNat 64 n.t
  flags : o.flags = n.f

theorem ORepr.len' {o : Output} {n : BLAKE3.Node} (h : ORepr o n) : o.block_len.toNat = n.block.length := by
  have := h.bl
  rw [h.len, BitVec.toNat_ofNat, Nat.mod_eq_of_lt (by omega)]

theorem ORepr.cv {o : Output} {n : BLAKE3.Node} (h : ORepr o n) : o.chainingValue = n.cv := by
  unfold Output.chainingValue BLAKE3.Node.cv uint32sToBytes
  rw [compress_in_place_eq _ _ _ _ _ (by rw [h.h]; exact h.hl), h.len', h.block, compress_pad, h.h, h.ctr, h.flags]

theorem cv_length {n : BLAKE3.Node} (h : n.h.length = 8) : n.cv.length = 32 := by
  unfold BLAKE3.Node.cv
  rw [flatMap_le32_length, List.length_take, compress_length _ _ _ _ _ h]; rfl

theorem rootBlock_length {n : BLAKE3.Node} (h : n.h.length = 8) (i : Nat) : (n.rootBlock i).length = 64 := by
  unfold BLAKE3.Node.rootBlock
  rw [flatMap_le32_length, compress_length _ _ _ _ _ h]

theorem CRepr.output {key : List U32} {fl : Byte} {t : Nat} (hk : key.length = 8) {cs : ChunkState} {m : Bytes}
    (h : CRepr key fl t cs m) (hm : m.length ≤ 1024) : ORepr cs.output (BLAKE3.chunk key fl t m) := by
  have hb := initBlocks_length m
  refine ⟨h.core.cv, chunkBlocks_length _ _ _ hk _, h.buf, (lastBlock_length 64 m (by decide)).1, h.len, h.core.ctr, ?_⟩
  show cs.flags ||| cs.maybeStartFlag ||| _ = _
  rw [startFlag_eq h.core (by omega), h.core.flags]
  rfl

theorem rootLoop_eq {o : Output} {n : BLAKE3.Node} (h : ORepr o n) : ∀ (fuel i len : Nat), len ≤ fuel →
    o.rootLoop fuel (BitVec.ofNat 64 i) len = ((List.range' i ((len + 63) / 64)).flatMap n.rootBlock).take len
  | 0, i, len, hf => by
    have : len = 0 := by omega
    subst this; rfl
  | fuel + 1, i, len, hf => by
    unfold Output.rootLoop
    by_cases h0 : len > 0
    · rw [if_pos h0]
      have hw : compress_xof o.input_cv o.block o.block_len (BitVec.ofNat 64 i) (o.flags ||| ROOT) = n.rootBlock i := by
        rw [compress_xof_eq _ _ _ _ _ (by rw [h.h]; exact h.hl), h.len', h.block, compress_pad, h.h, h.flags]; rfl
      have hi : BitVec.ofNat 64 i + 1 = BitVec.ofNat 64 (i + 1) := (BitVec.ofNat_add ..).symm
      dsimp only
      rw [hw, hi]
      have hrl := rootBlock_length h.hl i
      by_cases h64 : len > 64
      · rw [if_pos h64, rootLoop_eq h fuel (i + 1) (len - 64) (by omega)]
        rw [show (len + 63) / 64 = (len - 64 + 63) / 64 + 1 by omega, List.range'_succ, List.flatMap_cons, List.take_append, hrl,
          List.take_of_length_le (l := n.rootBlock i) (by omega), List.take_of_length_le (l := n.rootBlock i) (by omega)]
      · rw [if_neg h64, rootLoop_eq h fuel (i + 1) (len - len) (by omega), Nat.sub_self]
        rw [show (len + 63) / 64 = 1 by omega]
        simp only [List.take_zero, List.append_nil, List.range'_one, List.flatMap_cons, List.flatMap_nil]
    · have : len = 0 := by omega
      subst this
      rw [if_neg (by omega)]; rfl

theorem rootBytes_eq {o : Output} {n : BLAKE3.Node} (h : ORepr o n) (len : Nat) : o.rootBytes len = BLAKE3.output n len := by
  unfold Output.rootBytes BLAKE3.output
  rw [List.range_eq_range']
  exact rootLoop_eq h len 0 len (Nat.le_refl _)

end Verif.BLAKE3
