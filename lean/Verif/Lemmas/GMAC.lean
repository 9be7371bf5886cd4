import Verif.Lemmas.GMACMul
import Verif.Words
import Verif.SetLoop
/-
gmac: GHASH, the counter and the tag.
-/
namespace Verif.GMAC
open Verif.Spec (GCM.mul GCM.block GCM.bytes GCM.ghash GCM.pad16 GCM.bitLen GCM.J0 GCM.gmac)

/-- One step of GHASH. -/
def gstep (H : BitVec 128) (Y : BitVec 128) (X : Bytes) : BitVec 128 := GCM.mul (Y ^^^ GCM.block X) H

theorem fe_xor (y : FE) (a b : U64) : FE.bv ⟨y.low ^^^ a, y.high ^^^ b⟩ = y.bv ^^^ (a ++ b : BitVec 128) := bv_add y ⟨a, b⟩

variable (key : Bytes)

theorem updateBlock_eq (y : FE) (b : Bytes) : (updateBlock (gcmInit key) y b).bv = gstep (GCM.block key) y.bv b := by
  unfold updateBlock gstep
  rw [gcmMul_eq, fe_xor]; rfl

theorem updateBlocks_eq (y : FE) (b : Bytes) : (updateBlocks (gcmInit key) y b).bv = (fullBlocks 16 b).foldl (gstep (GCM.block key)) y.bv := by
  unfold updateBlocks
  induction fullBlocks 16 b generalizing y with
  | nil => rfl
  | cons x xs ih => rw [List.foldl_cons, List.foldl_cons, ih, updateBlock_eq]

theorem pad16_mod (b : Bytes) : (GCM.pad16 b).length % 16 = 0 := by
  unfold GCM.pad16; rw [List.length_append, zeros_length]; omega
theorem pad16_full {b : Bytes} (h : b.length % 16 = 0) : GCM.pad16 b = b := by
  unfold GCM.pad16; rw [h]; exact List.append_nil _
theorem pad16_append {a b : Bytes} (h : a.length % 16 = 0) : GCM.pad16 (a ++ b) = a ++ GCM.pad16 b := by
  unfold GCM.pad16
  rw [List.append_assoc, List.length_append, show (a.length + b.length) % 16 = b.length % 16 by omega]

theorem gcmUpdate_eq (y : FE) (b : Bytes) : (gcmUpdate (gcmInit key) y b).bv = (fullBlocks 16 (GCM.pad16 b)).foldl (gstep (GCM.block key)) y.bv := by
  unfold gcmUpdate
  dsimp only
  have hf : (b.length >>> 4) <<< 4 = b.length / 16 * 16 := by rw [Nat.shiftLeft_eq, Nat.shiftRight_eq_div_pow]
  rw [hf]
  have hle := Nat.div_mul_le_self b.length 16
  have htl : (b.take (b.length / 16 * 16)).length = b.length / 16 * 16 := by rw [List.length_take]; omega
  split
  · rename_i h
    rw [updateBlocks_eq, updateBlocks_eq, ← List.foldl_append, ← fullBlocks_append _ _ _ (by omega) (by rw [htl]; omega)]
    congr 2
    have hdl : (b.drop (b.length / 16 * 16)).length = b.length % 16 := by rw [List.length_drop]; omega
    conv => rhs; rw [← List.take_append_drop (b.length / 16 * 16) b]
    rw [pad16_append (by rw [htl]; omega)]
    congr 1
    unfold goCopy GCM.pad16
    rw [List.take_zero, List.nil_append, zeros_length, List.take_of_length_le (by omega), hdl, Nat.zero_add]
    congr 1
    unfold zeros
    rw [List.drop_replicate]
    congr 1
    omega
  · rename_i h
    rw [updateBlocks_eq, pad16_full (by omega), List.take_of_length_le (by omega)]
theorem update_eq (y : FE) (b : Bytes) : (update (gcmInit key) y b).bv = (fullBlocks 16 (GCM.pad16 b)).foldl (gstep (GCM.block key)) y.bv := by
  unfold update
  split
  · rename_i h
    have : b = [] := List.eq_nil_of_length_eq_zero h
    subst this
    rfl
  · exact gcmUpdate_eq key y b

theorem bytes_bv (y : FE) : be64 y.low ++ be64 y.high = GCM.bytes y.bv := by
  unfold GCM.bytes
  have h1 : y.bv.extractLsb' 64 64 = y.low := by
    apply BitVec.eq_of_getLsbD_eq
    intro i hi
    rw [BitVec.getLsbD_extractLsb', bv_getLsbD _ _ (by omega), if_neg (by omega), show 64 + i - 64 = i by omega]; simp [hi]
  have h2 : y.bv.extractLsb' 0 64 = y.high := by
    apply BitVec.eq_of_getLsbD_eq
    intro i hi
    rw [BitVec.getLsbD_extractLsb', bv_getLsbD _ _ (by omega), if_pos (by omega), Nat.zero_add]; simp [hi]
  rw [h1, h2]

theorem ofNat_mul8 (n : Nat) : BitVec.ofNat 64 n * 8 = BitVec.ofNat 64 (8 * n) := by
  apply BitVec.eq_of_toNat_eq
  rw [BitVec.toNat_mul, BitVec.toNat_ofNat, BitVec.toNat_ofNat]
  show n % 2 ^ 64 * 8 % 2 ^ 64 = _
  rw [Nat.mod_mul_mod, Nat.mul_comm]

/-- The length block. -/
theorem lenBlock (a b : U64) : GCM.block (be64 a ++ be64 b) = a ++ b := by
  unfold GCM.block
  rw [getBE64_be64]
  have : getBE64 (be64 a ++ be64 b) 8 = getBE64 ((be64 a ++ be64 b).drop 8) 0 := by rw [getBE64_drop]
  rw [this, show (be64 a ++ be64 b).drop 8 = be64 b from List.drop_left' rfl]
  have := getBE64_be64 b []
  rw [List.append_nil] at this
  rw [this]

theorem ghash_len (H : BitVec 128) (X L : Bytes) (hX : X.length % 16 = 0) (hL : L.length = 16) :
    GCM.ghash H (X ++ L) = gstep H ((fullBlocks 16 X).foldl (gstep H) 0) L := by
  unfold GCM.ghash
  rw [fullBlocks_append _ _ _ (by omega) hX, fullBlocks_one _ _ (by omega) hL, List.foldl_append]
  rfl

theorem fe_zero : FE.bv ⟨0, 0⟩ = 0#128 := by decide
theorem zeros8 : zeros 8 = be64 0 := by decide

theorem deriveCounter_eq (iv : Bytes) : deriveCounter (gcmInit key) iv = GCM.J0 (GCM.block key) iv := by
  unfold deriveCounter GCM.J0
  split
  · rename_i h
    have e : goCopy (zeros 16) 0 iv = iv ++ zeros 4 := by
      unfold goCopy
      rw [List.take_zero, List.nil_append, zeros_length, List.take_of_length_le (by omega), h]; rfl
    rw [e, List.set_append_right _ _ (by omega), h]; rfl
  · dsimp only
    have h1 : FE.bv ⟨(gcmUpdate (gcmInit key) ⟨0, 0⟩ iv).low, (gcmUpdate (gcmInit key) ⟨0, 0⟩ iv).high ^^^ (BitVec.ofNat 64 iv.length * 8)⟩ =
        (gcmUpdate (gcmInit key) ⟨0, 0⟩ iv).bv ^^^ (0#64 ++ BitVec.ofNat 64 iv.length * 8 : BitVec 128) := by
      rw [← fe_xor, BitVec.xor_zero]
    rw [bytes_bv, gcmMul_eq, h1, gcmUpdate_eq, fe_zero, ofNat_mul8, List.append_assoc,
      ghash_len _ _ _ (pad16_mod iv) (by rw [List.length_append, zeros_length]; rfl)]
    unfold GCM.bitLen gstep
    rw [zeros8, lenBlock]; rfl

/-- The tag, for the GHASH state `y` of the whole data and the length `n` that the object believes. -/
theorem finish_eq (y : FE) (n : Nat) (mask : Bytes) : gcmFinish (gcmInit key) y 0 n mask =
    List.zipWith (· ^^^ ·) (GCM.bytes (gstep (GCM.block key) y.bv (be64 (BitVec.ofNat 64 (8 * n)) ++ zeros 8))) mask := by
  unfold gcmFinish
  dsimp only
  rw [bytes_bv, gcmMul_eq, fe_xor, ofNat_mul8]
  unfold gstep
  rw [zeros8, lenBlock]; rfl

/-- The tag of SP 800-38D with an arbitrary value in the length field. -/
def tagWith (E : Bytes → Bytes) (iv A : Bytes) (n : Nat) : Bytes :=
  let H := GCM.block (E (zeros 16))
  List.zipWith (· ^^^ ·) (GCM.bytes (GCM.ghash H (GCM.pad16 A ++ (be64 (BitVec.ofNat 64 (8 * n)) ++ zeros 8)))) (E (GCM.J0 H iv))

theorem tagWith_length (E : Bytes → Bytes) (iv A : Bytes) : tagWith E iv A A.length = GCM.gmac E iv A := by
  unfold tagWith GCM.gmac GCM.bitLen
  rw [List.append_assoc]

/-- The object has been given the bytes `m`, and believes that they are `n`. -/
structure Rep (E : Bytes → Bytes) (iv : Bytes) (g : Ghash) (m : Bytes) (n : Nat) : Prop where
  gcm : g.gcm = gcmInit (E (zeros 16))
  mask : g.tagMask = E (GCM.J0 (GCM.block (E (zeros 16))) iv)
  y : g.y.bv = (fullBlocks 16 m).foldl (gstep (GCM.block (E (zeros 16)))) 0
  rl : g.remains.length = 16
  idx : g.remainIdx = (restBlock 16 m).length
  held : g.remains.take g.remainIdx = restBlock 16 m
  wr : g.written + g.remainIdx = n

variable {E : Bytes → Bytes} {iv : Bytes}

theorem rep_nil (g : Ghash) (h1 : g.gcm = gcmInit (E (zeros 16))) (h2 : g.tagMask = E (GCM.J0 (GCM.block (E (zeros 16))) iv)) (h3 : g.y = ⟨0, 0⟩)
    (h4 : g.remains.length = 16) (h5 : g.remainIdx = 0) (h6 : g.written = 0) : Rep E iv g [] 0 := by
  refine ⟨h1, h2, by rw [h3]; exact fe_zero, h4, h5, by rw [h5]; rfl, by rw [h5, h6]⟩

theorem tag_eq {g : Ghash} {m : Bytes} {n : Nat} (h : Rep E iv g m n) : g.tag = tagWith E iv m n := by
  unfold Ghash.tag
  dsimp only
  rw [h.gcm, finish_eq, h.wr, h.mask]
  unfold tagWith
  dsimp only
  rw [ghash_len _ _ _ (pad16_mod m) (by rw [List.length_append, zeros_length]; rfl)]
  congr 3
  have hm : m.length / 16 * 16 ≤ m.length := Nat.div_mul_le_self _ _
  have htl : (m.take (m.length / 16 * 16)).length = m.length / 16 * 16 := by rw [List.length_take]; omega
  have hsplit : GCM.pad16 m = m.take (m.length / 16 * 16) ++ GCM.pad16 (restBlock 16 m) := by
    unfold restBlock
    rw [← pad16_append (by rw [htl]; omega), List.take_append_drop]
  have hfb : fullBlocks 16 (m.take (m.length / 16 * 16)) = fullBlocks 16 m := by
    conv => rhs; rw [← List.take_append_drop (m.length / 16 * 16) m]
    rw [fullBlocks_append _ _ _ (by omega) (by rw [htl]; omega)]
    rw [fullBlocks_lt 16 (m.drop _) (by rw [List.length_drop]; omega), List.append_nil]
  rw [hsplit, fullBlocks_append _ _ _ (by omega) (by rw [htl]; omega), List.foldl_append, hfb, ← h.y]
  split
  · rw [update_eq, h.held]
  · rename_i h0
    have : restBlock 16 m = [] := List.eq_nil_of_length_eq_zero (by rw [← h.idx]; omega)
    rw [this]; rfl

/-- The last part of Write. -/
theorem rest_rep {g : Ghash} {m : Bytes} {n : Nat} (h : Rep E iv g m n) (h0 : g.remainIdx = 0) (k : Nat) (b : Bytes) :
    (g.rest k b).2 = k + b.length ∧ Rep E iv (g.rest k b).1 (m ++ b) (n + b.length) := by
  have hm : m.length % 16 = 0 := by have := h.idx; rw [restBlock_length] at this; omega
  have hle := Nat.div_mul_le_self b.length 16
  have htl : (b.take (b.length / 16 * 16)).length = b.length / 16 * 16 := by rw [List.length_take]; omega
  have hw := h.wr
  have hfb : fullBlocks 16 (b.take (b.length / 16 * 16)) = fullBlocks 16 b := by
    conv => rhs; rw [← List.take_append_drop (b.length / 16 * 16) b]
    rw [fullBlocks_append _ _ _ (by omega) (by rw [htl]; omega)]
    rw [fullBlocks_lt 16 (b.drop _) (by rw [List.length_drop]; omega), List.append_nil]
  -- the state after the full blocks
  have hy : (update g.gcm g.y (b.take (b.length / 16 * 16))).bv = (fullBlocks 16 (m ++ b)).foldl (gstep (GCM.block (E (zeros 16)))) 0 := by
    rw [h.gcm, update_eq, pad16_full (by rw [htl]; omega), h.y, hfb, ← List.foldl_append, fullBlocks_append _ _ _ (by omega) hm]
  have hr : restBlock 16 (m ++ b) = b.drop (b.length / 16 * 16) := by rw [restBlock_append _ _ _ (by omega) hm]; rfl
  have hdl : (b.drop (b.length / 16 * 16)).length = b.length - b.length / 16 * 16 := List.length_drop ..
  unfold Ghash.rest
  dsimp only
  by_cases hf : 0 < b.length / 16 * 16
  · rw [if_pos hf]
    dsimp only
    by_cases hp : 0 < (b.drop (b.length / 16 * 16)).length
    · rw [if_pos hp]
      refine ⟨by dsimp only; omega, h.gcm, h.mask, hy, ?_, ?_, ?_, ?_⟩
      · show (goCopy g.remains 0 _).length = 16; rw [goCopy_length _ _ _ (by omega), h.rl]
      · show min 16 _ = _; rw [hr]; omega
      · show (goCopy g.remains 0 (b.drop (b.length / 16 * 16))).take (min 16 (b.drop (b.length / 16 * 16)).length) = _
        have := goCopy_take g.remains 0 (b.drop (b.length / 16 * 16)) (by rw [h.rl]; omega)
        rw [Nat.zero_add, List.take_zero, List.nil_append] at this
        rw [Nat.min_eq_right (by omega), this, hr]
      · show g.written + b.length / 16 * 16 + min 16 _ = _; omega
    · rw [if_neg hp]
      have he : b.drop (b.length / 16 * 16) = [] := List.eq_nil_of_length_eq_zero (by omega)
      refine ⟨by dsimp only; omega, h.gcm, h.mask, hy, h.rl, ?_, ?_, ?_⟩
      · show g.remainIdx = _; rw [hr, he]; exact h0
      · show g.remains.take g.remainIdx = _; rw [hr, he, h0]; rfl
      · show g.written + b.length / 16 * 16 + g.remainIdx = _; omega
  · rw [if_neg hf]
    dsimp only
    have hz : b.length / 16 * 16 = 0 := by omega
    have hd0 : b.drop (b.length / 16 * 16) = b := by rw [hz]; rfl
    have hy' : g.y.bv = (fullBlocks 16 (m ++ b)).foldl (gstep (GCM.block (E (zeros 16)))) 0 := by
      rw [fullBlocks_append _ _ _ (by omega) hm, fullBlocks_lt 16 b (by omega), List.append_nil]; exact h.y
    rw [hd0] at hr
    by_cases hp : 0 < b.length
    · rw [if_pos hp]
      refine ⟨by dsimp only; omega, h.gcm, h.mask, hy', ?_, ?_, ?_, ?_⟩
      · show (goCopy g.remains 0 _).length = 16; rw [goCopy_length _ _ _ (by omega), h.rl]
      · show min 16 _ = _; rw [hr]; omega
      · show (goCopy g.remains 0 b).take (min 16 b.length) = _
        have := goCopy_take g.remains 0 b (by rw [h.rl]; omega)
        rw [Nat.zero_add, List.take_zero, List.nil_append] at this
        rw [Nat.min_eq_right (by omega), this, hr]
      · show g.written + min 16 _ = _; omega
    · rw [if_neg hp]
      have he : b = [] := List.eq_nil_of_length_eq_zero (by omega)
      subst he
      rw [List.append_nil]
      exact ⟨rfl, h⟩

/-- The length that the object believes after a `Write` of `k` bytes, when `n` was what it believed and `r` bytes were held. -/
def believe (n r k : Nat) : Nat := if r = 0 then n + k else if r + k < 16 then n + 2 * k else n - r + k

/-- Every `Write`: the data are right; but when a partial block is held, its bytes are counted wrongly. -/
theorem write_rep {g : Ghash} {m : Bytes} {n : Nat} (h : Rep E iv g m n) (b : Bytes) :
    (g.write b).2 = b.length ∧ Rep E iv (g.write b).1 (m ++ b) (believe n (m.length % 16) b.length) := by
  have hi : g.remainIdx = m.length % 16 := by rw [h.idx, restBlock_length]
  have hw := h.wr
  have hrl := h.rl
  have hhl : (restBlock 16 m).length = g.remainIdx := h.idx.symm
  have hlt : m.length % 16 < 16 := Nat.mod_lt _ (by omega)
  unfold Ghash.write believe
  by_cases h0 : 0 < g.remainIdx
  · rw [if_pos h0, if_neg (show ¬ m.length % 16 = 0 by omega)]
    dsimp only
    rw [hrl]
    have hfl : (fullBlocks 16 m).flatten ++ restBlock 16 m = m := fullBlocks_flatten_append_rest 16 m
    have hfm : (fullBlocks 16 m).flatten.length % 16 = 0 := by
      have := congrArg List.length hfl
      rw [List.length_append, hhl] at this
      omega
    by_cases hc : m.length % 16 + b.length < 16
    · have hk : min (16 - g.remainIdx) b.length = b.length := by omega
      rw [hk, if_pos (show g.remainIdx + b.length < 16 by omega), if_pos hc]
      have hmb : m ++ b = (fullBlocks 16 m).flatten ++ (restBlock 16 m ++ b) := by rw [← List.append_assoc, hfl]
      have hl : (restBlock 16 m ++ b).length < 16 := by rw [List.length_append]; omega
      have hr : restBlock 16 (m ++ b) = restBlock 16 m ++ b := by
        rw [hmb, restBlock_append _ _ _ (by omega) hfm, restBlock_lt _ _ hl]
      refine ⟨rfl, h.gcm, h.mask, ?_, ?_, ?_, ?_, ?_⟩
      · have e1 : fullBlocks 16 (m ++ b) = fullBlocks 16 m := by
          rw [hmb, fullBlocks_append _ _ _ (by omega) hfm, fullBlocks_lt _ _ hl, List.append_nil]
          conv => rhs; rw [← hfl, fullBlocks_append _ _ _ (by omega) hfm, fullBlocks_lt 16 (restBlock 16 m) (by omega), List.append_nil]
        rw [e1]; exact h.y
      · show (goCopy g.remains g.remainIdx b).length = 16; rw [goCopy_length _ _ _ (by omega), hrl]
      · show g.remainIdx + b.length = _; rw [hr, List.length_append]; omega
      · show (goCopy g.remains g.remainIdx b).take (g.remainIdx + b.length) = _
        rw [goCopy_take _ _ _ (by omega), h.held, hr]
      · show g.written + b.length + (g.remainIdx + b.length) = _; omega
    · have hk : min (16 - g.remainIdx) b.length = 16 - g.remainIdx := by omega
      rw [hk, if_neg (show ¬ g.remainIdx + (16 - g.remainIdx) < 16 by omega), if_neg hc]
      have hbt : (b.take (16 - g.remainIdx)).length = 16 - g.remainIdx := by rw [List.length_take]; omega
      have hml : (m ++ b.take (16 - g.remainIdx)).length % 16 = 0 := by rw [List.length_append, hbt]; omega
      have hmb : m ++ b.take (16 - g.remainIdx) = (fullBlocks 16 m).flatten ++ (restBlock 16 m ++ b.take (16 - g.remainIdx)) := by
        rw [← List.append_assoc, hfl]
      have hl : (restBlock 16 m ++ b.take (16 - g.remainIdx)).length = 16 := by rw [List.length_append, hbt]; omega
      have hg : goCopy g.remains g.remainIdx b = restBlock 16 m ++ b.take (16 - g.remainIdx) := by
        rw [goCopy_full _ _ _ (by omega) (by omega), h.held, hrl]
      have key : Rep E iv { g with remains := goCopy g.remains g.remainIdx b, written := g.written + (16 - g.remainIdx), remainIdx := 0,
                                   y := update g.gcm g.y (goCopy g.remains g.remainIdx b) }
          (m ++ b.take (16 - g.remainIdx)) (g.written + (16 - g.remainIdx)) := by
        refine ⟨h.gcm, h.mask, ?_, ?_, ?_, ?_, ?_⟩
        · show (update g.gcm g.y (goCopy g.remains g.remainIdx b)).bv = _
          rw [h.gcm, update_eq, hg, pad16_full (by omega), h.y, ← List.foldl_append, hmb,
            fullBlocks_append _ _ _ (by omega) hfm]
          congr 2
          conv => lhs; rw [← hfl, fullBlocks_append _ _ _ (by omega) hfm, fullBlocks_lt 16 (restBlock 16 m) (by omega), List.append_nil]
        · show (goCopy g.remains g.remainIdx b).length = 16; rw [goCopy_length _ _ _ (by omega), hrl]
        · rw [restBlock_length]; exact hml.symm
        · symm; apply List.eq_nil_of_length_eq_zero; rw [restBlock_length]; exact hml
        · rfl
      have := rest_rep key rfl (16 - g.remainIdx) (b.drop (16 - g.remainIdx))
      rw [List.append_assoc, List.take_append_drop, List.length_drop] at this
      refine ⟨by rw [this.1]; omega, ?_⟩
      have e : n - m.length % 16 + b.length = g.written + (16 - g.remainIdx) + (b.length - (16 - g.remainIdx)) := by omega
      rw [e]
      exact this.2
  · rw [if_neg h0, if_pos (show m.length % 16 = 0 by omega)]
    have := rest_rep h (by omega) 0 b
    rw [Nat.zero_add] at this
    exact this

end Verif.GMAC
