import Verif.Model.Chaskey
import Verif.Spec.Chaskey
import Verif.Bits
namespace Verif.Chaskey
open Verif.Spec.Chaskey (W word join)

def toW (s : S) : W := join s.v0 s.v1 s.v2 s.v3

theorem join_getLsbD (a b c d : U32) (i : Nat) : (join a b c d).getLsbD i =
    if i < 32 then a.getLsbD i else if i < 64 then b.getLsbD (i - 32) else
      if i < 96 then c.getLsbD (i - 64) else d.getLsbD (i - 96) := by
  unfold join
  rw [BitVec.getLsbD_append, BitVec.getLsbD_append, BitVec.getLsbD_append]
  by_cases h1 : i < 32
  · simp [h1]
  · by_cases h2 : i < 64
    · simp [h1, h2, show i - 32 < 32 by omega]
    · by_cases h3 : i < 96
      · simp only [h1, h2, h3, show ¬ i - 32 < 32 by omega, show i - 32 - 32 < 32 by omega, if_true, if_false]; rw [show i - 32 - 32 = i - 64 by omega]
      · simp [h1, h2, h3, show ¬ i - 32 < 32 by omega, show ¬ i - 32 - 32 < 32 by omega, show i - 32 - 32 - 32 = i - 96 by omega]

theorem word0 (a b c d : U32) : word (join a b c d) 0 = a := by
  apply BitVec.eq_of_getLsbD_eq; intro i hi
  unfold word
  rw [BitVec.getLsbD_extractLsb', join_getLsbD]
  simp [hi]
theorem word1 (a b c d : U32) : word (join a b c d) 1 = b := by
  apply BitVec.eq_of_getLsbD_eq; intro i hi
  unfold word
  rw [BitVec.getLsbD_extractLsb', join_getLsbD]
  simp [hi, show 32 + i < 64 by omega]
theorem word2 (a b c d : U32) : word (join a b c d) 2 = c := by
  apply BitVec.eq_of_getLsbD_eq; intro i hi
  unfold word
  rw [BitVec.getLsbD_extractLsb', join_getLsbD]
  simp [hi, show ¬ 64 + i < 32 by omega, show ¬ 64 + i < 64 by omega, show 64 + i < 96 by omega]
theorem word3 (a b c d : U32) : word (join a b c d) 3 = d := by
  apply BitVec.eq_of_getLsbD_eq; intro i hi
  unfold word
  rw [BitVec.getLsbD_extractLsb', join_getLsbD]
  simp [hi, show ¬ 96 + i < 32 by omega, show ¬ 96 + i < 64 by omega, show ¬ 96 + i < 96 by omega]

theorem toW_xor4 (a b : S) : toW (xor4 a b) = toW a ^^^ toW b := by
  apply BitVec.eq_of_getLsbD_eq; intro i hi
  unfold toW xor4
  rw [BitVec.getLsbD_xor, join_getLsbD, join_getLsbD, join_getLsbD]
  simp only [BitVec.getLsbD_xor]
  split
  · rfl
  split
  · rfl
  split <;> rfl

theorem toW_words (b : Bytes) : toW (words b) = Spec.Chaskey.ofBytes b := rfl

theorem toW_round (v : S) : toW (round v) = Spec.Chaskey.round (toW v) := by
  unfold toW Spec.Chaskey.round
  simp only [word0, word1, word2, word3]
  rfl

theorem toW_permute (r : Nat) : ∀ v, toW (permute r v) = Spec.Chaskey.perm r (toW v) := by
  induction r with
  | zero => intro v; rfl
  | succ n ih =>
    intro v
    unfold permute
    rw [forLoop_cons _ _ _ _ (by omega)]
    have : forLoop 1 (n+1) (fun v _ => round v) (round v) = permute n (round v) := by
      unfold permute forLoop
      simp only [Nat.add_sub_cancel, Nat.sub_zero]
      have key : ∀ (l : List Nat) (l' : List Nat) (s : S), l.length = l'.length → l.foldl (fun v _ => round v) s = l'.foldl (fun v _ => round v) s := by
        intro l
        induction l with
        | nil => intro l' s h; cases l' with
          | nil => rfl
          | cons _ _ => simp at h
        | cons a l ih => intro l' s h; cases l' with
          | nil => simp at h
          | cons b l' => exact ih l' _ (by simpa using h)
      exact key _ _ _ (by simp)
    rw [this, ih, toW_round]; rfl

theorem toW_timestwo (a : S) : toW (timestwo a) = Spec.Chaskey.timesTwo (toW a) := by
  have hc : (a.v3 >>> 31 = 0) ↔ a.v3.getLsbD 31 = false := by
    constructor
    · intro h
      have := congrArg (fun v => v.getLsbD 0) h
      simpa using this
    · intro h
      apply BitVec.eq_of_getLsbD_eq; intro i hi
      rw [BitVec.getLsbD_ushiftRight]
      by_cases h0 : i = 0
      · subst h0; rw [Nat.add_zero, h]; rfl
      · rw [BitVec.getLsbD_of_ge _ _ (by omega)]; simp
  have hm : (toW a).getLsbD 127 = a.v3.getLsbD 31 := by unfold toW; rw [join_getLsbD]; rfl
  unfold timestwo Spec.Chaskey.timesTwo
  rw [hm]
  apply BitVec.eq_of_getLsbD_eq; intro i hi
  unfold toW
  rw [BitVec.getLsbD_xor, BitVec.getLsbD_shiftLeft, join_getLsbD, join_getLsbD]
  simp only [BitVec.getLsbD_xor, BitVec.getLsbD_or, BitVec.getLsbD_shiftLeft, BitVec.getLsbD_ushiftRight]
  have hK : ∀ i, i < 128 → 32 ≤ i → (0x87#128).getLsbD i = false := by decide
  have hK' : ∀ i, i < 32 → (0x87#128).getLsbD i = (0x87#32).getLsbD i := by decide
  have hcc : ((if a.v3 >>> 31 = 0 then 0x00 else 0x87 : U32)).getLsbD i = (i < 32 && (if a.v3.getLsbD 31 = true then 0x87#128 else 0#128).getLsbD i) := by
    by_cases h : a.v3.getLsbD 31 = true
    · rw [if_neg (by rw [hc, h]; decide), if_pos h]
      by_cases h32 : i < 32
      · rw [hK' i h32]; simp [h32]
      · rw [BitVec.getLsbD_of_ge _ _ (by omega)]; simp [h32]
    · rw [if_pos (by rw [hc]; simpa using h), if_neg h]; simp
  by_cases h1 : i < 32
  · simp only [h1, if_true, hcc]
    by_cases h0 : i < 1
    · simp [h0]
    · simp [h0, show i - 1 < 32 by omega, hi]
  · have hz : (if a.v3.getLsbD 31 = true then 0x87#128 else 0#128).getLsbD i = false := by
      split
      · exact hK i hi (by omega)
      · simp
    simp only [h1, if_false, hz, Bool.xor_false, hi, decide_true, Bool.true_and, show ¬ i < 1 by omega, decide_false, Bool.not_false]
    by_cases h2 : i < 64
    · simp only [h2, if_true]
      by_cases he : i = 32
      · subst he; simp
      · simp [show ¬ i - 1 < 32 by omega, show i - 1 < 64 by omega, show ¬ i - 32 < 1 by omega, show i - 32 < 32 by omega, show i - 32 - 1 = i - 1 - 32 by omega, show 31 + (i - 32) ≥ 32 by omega]
    · simp only [h2, if_false]
      by_cases h3 : i < 96
      · simp only [h3, if_true]
        by_cases he : i = 64
        · subst he; simp
        · simp [show ¬ i - 1 < 32 by omega, show ¬ i - 1 < 64 by omega, show i - 1 < 96 by omega, show ¬ i - 64 < 1 by omega, show i - 64 < 32 by omega, show i - 64 - 1 = i - 1 - 64 by omega, show 31 + (i - 64) ≥ 32 by omega]
      · simp only [h3, if_false]
        by_cases he : i = 96
        · subst he; simp
        · simp [show ¬ i - 1 < 32 by omega, show ¬ i - 1 < 64 by omega, show ¬ i - 1 < 96 by omega, show ¬ i - 96 < 1 by omega, show i - 96 < 32 by omega, show i - 96 - 1 = i - 1 - 96 by omega, show 31 + (i - 96) ≥ 32 by omega]

theorem toW_block (r : Nat) (s : S) (m : Bytes) : toW (block r s m) = Spec.Chaskey.perm r (toW s ^^^ Spec.Chaskey.ofBytes m) := by
  unfold block; rw [toW_permute, toW_xor4, toW_words]

theorem toW_blocks (r : Nat) (l : List Bytes) : ∀ s, toW (l.foldl (block r) s) =
    l.foldl (fun h b => Spec.Chaskey.perm r (h ^^^ Spec.Chaskey.ofBytes b)) (toW s) := by
  induction l with
  | nil => intro s; rfl
  | cons b l ih => intro s; simp only [List.foldl_cons]; rw [ih, toW_block]

theorem toBytes_toW (s : S) : Spec.Chaskey.toBytes (toW s) = le32 s.v0 ++ le32 s.v1 ++ le32 s.v2 ++ le32 s.v3 := by
  unfold toW Spec.Chaskey.toBytes
  rw [word0, word1, word2, word3]

/-- The digest holds everything but the last block processed, and the buffer is clean. -/
structure Clean (r : Nat) (key : Bytes) (d : Digest) (m : Bytes) : Prop where
  rounds : d.r = r
  k1 : d.k1 = timestwo (words key)
  k2 : d.k2 = timestwo (timestwo (words key))
  s : d.s = (initBlocks 16 m).foldl (block r) (words key)
  nx : d.nx = (lastBlock 16 m).length
  x : d.x = lastBlock 16 m ++ zeros (16 - (lastBlock 16 m).length)

theorem checkSum_clean {r : Nat} {key : Bytes} {d : Digest} {m : Bytes} (h : Clean r key d m) :
    checkSum d = Spec.Chaskey.mac r key m := by
  obtain ⟨h1, h2, h3, h4, h5, h6⟩ := h
  have hl := (lastBlock_length 16 m (by decide)).1
  unfold checkSum Spec.Chaskey.mac
  simp only
  rw [← toBytes_toW, ← toW_words key, ← toW_timestwo, ← toW_timestwo, ← toW_blocks, ← h4]
  congr 1
  unfold lastblock
  simp only
  rw [toW_xor4, toW_permute, toW_xor4, toW_xor4, h1, h2, h3, h5, h6]
  generalize hB : lastBlock 16 m = B at *
  by_cases hc : B.length = 16
  · simp only [if_pos hc]
    rw [hc, Nat.sub_self, show zeros 0 = [] from rfl, List.append_nil, toW_words]
  · simp only [if_neg hc]
    have hset : (B ++ zeros (16 - B.length)).set B.length 1#8 = B ++ [1#8] ++ zeros (15 - B.length) := by
      rw [List.set_append_right _ _ (Nat.le_refl _), Nat.sub_self, show 16 - B.length = (15 - B.length) + 1 by omega]
      unfold zeros
      rw [List.replicate_succ, List.set_cons_zero, List.append_assoc]; rfl
    rw [hset, toW_words]

theorem new_clean {key : Bytes} {r : Nat} {d : Digest} (h : new key r = some d) : Clean r key d [] := by
  unfold new at h
  by_cases hk : key.length ≠ 16
  · rw [if_pos hk] at h; exact absurd h (Option.some_ne_none d).symm
  · rw [if_neg hk] at h
    have := Option.some.inj h
    subst this
    exact ⟨rfl, rfl, rfl, by rw [initBlocks_le (by decide) (by simp)]; rfl, by rw [lastBlock_le (by decide) (by simp)]; rfl,
      by rw [lastBlock_le (by decide) (by simp)]; rfl⟩

theorem goCopy_zeros16 (B : Bytes) (h : B.length ≤ 16) : goCopy (zeros 16) 0 B = B ++ zeros (16 - B.length) := by
  unfold goCopy
  rw [zeros_length, List.take_of_length_le (l := B) (by omega), List.take_zero, List.nil_append, Nat.zero_add]
  unfold zeros
  rw [List.drop_replicate]

/-- A first `Write` of any length. -/
theorem write_first {r : Nat} {key : Bytes} {d : Digest} (h : Clean r key d []) (p : Bytes) : Clean r key (write d p) p := by
  obtain ⟨h1, h2, h3, h4, h5, h6⟩ := h
  rw [lastBlock_le (by decide) (by simp)] at h5 h6
  rw [initBlocks_le (by decide) (by simp)] at h4
  obtain ⟨s, x, nx, len, k1, k2, r'⟩ := d
  simp only [List.length_nil, List.foldl_nil, Nat.sub_zero, List.nil_append] at h1 h2 h3 h4 h5 h6
  subst h1 h2 h3 h4 h5 h6
  obtain ⟨hl, hl0⟩ := lastBlock_length 16 p (by decide)
  have key' : ∀ nx', nx' = 0 → Clean r' key
      (if 0 < (lastBlock 16 p).length then
        ({ s := (initBlocks 16 p).foldl (block r') (words key), x := goCopy (zeros 16) 0 (lastBlock 16 p), nx := min 16 (lastBlock 16 p).length, len := len + BitVec.ofNat 64 p.length, k1 := timestwo (words key), k2 := timestwo (timestwo (words key)), r := r' } : Digest)
        else { s := (initBlocks 16 p).foldl (block r') (words key), x := zeros 16, nx := nx', len := len + BitVec.ofNat 64 p.length, k1 := timestwo (words key), k2 := timestwo (timestwo (words key)), r := r' }) p := by
    rintro _ rfl
    by_cases hc : 0 < (lastBlock 16 p).length
    · rw [if_pos hc]
      exact ⟨rfl, rfl, rfl, rfl, Nat.min_eq_right hl, goCopy_zeros16 _ hl⟩
    · rw [if_neg hc]
      have hB : lastBlock 16 p = [] := List.length_eq_zero_iff.mp (by omega)
      exact ⟨rfl, rfl, rfl, rfl, by rw [hB]; rfl, by rw [hB]; rfl⟩
  unfold write
  simp only [Nat.lt_irrefl, if_false]
  by_cases hp : 16 < p.length
  · simp only [if_pos hp, lazyLoop_spec (block r') (by decide : 0 < 16) p.length _ p (Nat.le_refl _)]
    exact key' 0 rfl
  · simp only [if_neg hp, lazyLoop_spec (block r') (by decide : 0 < 16) p.length _ p (Nat.le_refl _)]
    exact key' 0 rfl

theorem goCopy_mid16 (B p : Bytes) (h : B.length + p.length < 16) :
    goCopy (B ++ zeros (16 - B.length)) B.length p = (B ++ p) ++ zeros (16 - (B ++ p).length) := by
  unfold goCopy
  rw [List.length_append, zeros_length, List.take_left, List.take_of_length_le (by omega), List.drop_append, List.drop_of_length_le (by omega),
    List.nil_append, List.length_append]
  unfold zeros
  rw [List.drop_replicate]
  congr 2
  omega

/-- Writes that together stay below one block. -/
theorem write_small {r : Nat} {key : Bytes} {d : Digest} {m p : Bytes} (h : Clean r key d m) (hl : m.length + p.length < 16) :
    Clean r key (write d p) (m ++ p) := by
  by_cases hm : m = []
  · subst hm; exact write_first h p
  have hm0 := List.length_pos_iff.mpr hm
  obtain ⟨h1, h2, h3, h4, h5, h6⟩ := h
  rw [lastBlock_le (by decide) (by omega)] at h5 h6
  rw [initBlocks_le (by decide) (by omega)] at h4
  obtain ⟨s, x, nx, len, k1, k2, r'⟩ := d
  simp only [List.foldl_nil] at h1 h2 h3 h4 h5 h6
  subst h1 h2 h3 h4 h5 h6
  unfold write
  have hmin : min (16 - m.length) p.length = p.length := by omega
  simp only [if_pos hm0, hmin, if_neg (by omega : ¬ m.length + p.length = 16), List.drop_length, List.length_nil, Nat.not_lt_zero,
    if_false, lazyLoop]
  refine ⟨rfl, rfl, rfl, ?_, ?_, ?_⟩
  · rw [initBlocks_le (by decide) (by rw [List.length_append]; omega)]; rfl
  · rw [lastBlock_le (by decide) (by rw [List.length_append]; omega), List.length_append]
  · rw [lastBlock_le (by decide) (by rw [List.length_append]; omega), goCopy_mid16 m p hl]

end Verif.Chaskey
