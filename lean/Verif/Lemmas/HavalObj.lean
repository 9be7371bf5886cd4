import Verif.Lemmas.Haval
import Verif.LoopBuf
/-
The digest object of package haval.
-/
namespace Verif.Haval
open Spec.Haval (Reg compress)

theorem inw_getD (blk : Bytes) (i : Nat) (hi : i < 32) :
    (forLoop 0 32 (fun (inw : List U32) i => inw.set i (getLE32 blk (4 * i))) (List.replicate 32 0)).getD i 0 = getLE32 blk (4 * i) := by
  have h := setLoopG (0 : U32) (fun i _ => getLE32 blk (4 * i)) 32 (List.replicate 32 0) (by simp)
  rw [h, List.getD_eq_getElem?_getD, List.getElem?_map, List.getElem?_range (by rw [List.length_replicate]; exact hi)]
  simp [hi]

theorem ord_lt (j i : Nat) : (Spec.Haval.ord j).getD i 0 < 32 := by
  have h : ∀ j, j < 6 → ∀ x ∈ Spec.Haval.ord j, x < 32 := by decide
  have h' : ∀ x ∈ Spec.Haval.ord j, x < 32 := by
    by_cases hj : j < 6
    · exact h j hj
    · have : Spec.Haval.ord j = Spec.Haval.ord 5 := by
        unfold Spec.Haval.ord
        split <;> first | rfl | omega
      rw [this]; exact h 5 (by omega)
  rw [List.getD_eq_getElem?_getD]
  by_cases hl : i < (Spec.Haval.ord j).length
  · rw [List.getElem?_eq_getElem hl]; exact h' _ (List.getElem_mem hl)
  · rw [List.getElem?_eq_none (by omega)]; decide

theorem foldl_congr' {α β} (l : List α) (f g : β → α → β) (h : ∀ b, ∀ a ∈ l, f b a = g b a) (b : β) : l.foldl f b = l.foldl g b := by
  induction l generalizing b with
  | nil => rfl
  | cons a l ih => rw [List.foldl_cons, List.foldl_cons, h b a (by simp), ih (fun b x hx => h b x (by simp [hx]))]

theorem pass_words (p j : Nat) (blk : Bytes) (T : Reg) :
    Spec.Haval.pass p j (fun i => (forLoop 0 32 (fun (inw : List U32) i => inw.set i (getLE32 blk (4 * i))) (List.replicate 32 0)).getD i 0) T =
      Spec.Haval.pass p j (fun i => getLE32 blk (4 * i)) T := by
  unfold Spec.Haval.pass
  apply foldl_congr'
  intro b a _
  dsimp only
  rw [inw_getD _ _ (ord_lt j a)]

theorem processBlock_eq (p : Nat) (hp : p = 3 ∨ p = 4 ∨ p = 5) (s : S8) (blk : Bytes) : reg0 (processBlock p s blk) = compress p (reg0 s) blk := by
  unfold processBlock compress
  dsimp only
  rcases hp with rfl | rfl | rfl
  · rw [if_pos rfl, ← show _ = (List.range 3).map (· + 1) from (rfl : [1, 2, 3] = _)]
    simp only [List.foldl_cons, List.foldl_nil]
    rw [← pass_words 3 1, ← pass_words 3 2, ← pass_words 3 3, ← pass31_eq, ← pass32_eq, ← pass33_eq]
    rfl
  · rw [if_neg (by omega), if_pos rfl, ← show _ = (List.range 4).map (· + 1) from (rfl : [1, 2, 3, 4] = _)]
    simp only [List.foldl_cons, List.foldl_nil]
    rw [← pass_words 4 1, ← pass_words 4 2, ← pass_words 4 3, ← pass_words 4 4, ← pass41_eq, ← pass42_eq, ← pass43_eq, ← pass44_eq]
    rfl
  · rw [if_neg (by omega), if_neg (by omega), if_pos rfl, ← show _ = (List.range 5).map (· + 1) from (rfl : [1, 2, 3, 4, 5] = _)]
    simp only [List.foldl_cons, List.foldl_nil]
    rw [← pass_words 5 1, ← pass_words 5 2, ← pass_words 5 3, ← pass_words 5 4, ← pass_words 5 5, ← pass51_eq, ← pass52_eq, ← pass53_eq, ← pass54_eq, ← pass55_eq]
    rfl

/-! Tailoring -/

theorem m128_0 (a0 a1 a2 a3 : U32) : mix128 a0 a1 a2 a3 0 = (a3.extractLsb' 24 8 ++ a2.extractLsb' 16 8 ++ a1.extractLsb' 8 8 ++ a0.extractLsb' 0 8 : BitVec 32) := by
  apply BitVec.eq_of_getLsbD_eq
  intro i hi
  unfold mix128 circularLeft
  simp only [BitVec.getLsbD_append, BitVec.getLsbD_extractLsb', Nat.lt_irrefl, if_false, gt_iff_lt]
  interval_cases i <;> simp [-BitVec.getLsbD_eq_getElem]
theorem m128_8 (a0 a1 a2 a3 : U32) : mix128 a0 a1 a2 a3 8 = (a2.extractLsb' 16 8 ++ a1.extractLsb' 8 8 ++ a0.extractLsb' 0 8 ++ a3.extractLsb' 24 8 : BitVec 32) := by
  apply BitVec.eq_of_getLsbD_eq
  intro i hi
  unfold mix128 circularLeft
  simp only [BitVec.getLsbD_append, BitVec.getLsbD_extractLsb', gt_iff_lt, show 0 < 8 from by omega, if_true, BitVec.getLsbD_rotateLeft]
  interval_cases i <;> simp [-BitVec.getLsbD_eq_getElem]
theorem m128_16 (a0 a1 a2 a3 : U32) : mix128 a0 a1 a2 a3 16 = (a1.extractLsb' 8 8 ++ a0.extractLsb' 0 8 ++ a3.extractLsb' 24 8 ++ a2.extractLsb' 16 8 : BitVec 32) := by
  apply BitVec.eq_of_getLsbD_eq
  intro i hi
  unfold mix128 circularLeft
  simp only [BitVec.getLsbD_append, BitVec.getLsbD_extractLsb', gt_iff_lt, show 0 < 16 from by omega, if_true, BitVec.getLsbD_rotateLeft]
  interval_cases i <;> simp [-BitVec.getLsbD_eq_getElem]
theorem m128_24 (a0 a1 a2 a3 : U32) : mix128 a0 a1 a2 a3 24 = (a0.extractLsb' 0 8 ++ a3.extractLsb' 24 8 ++ a2.extractLsb' 16 8 ++ a1.extractLsb' 8 8 : BitVec 32) := by
  apply BitVec.eq_of_getLsbD_eq
  intro i hi
  unfold mix128 circularLeft
  simp only [BitVec.getLsbD_append, BitVec.getLsbD_extractLsb', gt_iff_lt, show 0 < 24 from by omega, if_true, BitVec.getLsbD_rotateLeft]
  interval_cases i <;> simp [-BitVec.getLsbD_eq_getElem]

open Spec.Haval (fld)

local macro "bits" : tactic => `(tactic| (
  apply BitVec.eq_of_getLsbD_eq
  intro i hi
  simp only [mix160_0, mix160_1, mix160_2, mix160_3, mix160_4, mix192_0, mix192_1, mix192_2, mix192_3, mix192_4, mix192_5, circularLeft, fld,
    BitVec.getLsbD_setWidth, BitVec.getLsbD_append, BitVec.getLsbD_extractLsb', BitVec.getLsbD_rotateLeft]
  interval_cases i <;> simp [-BitVec.getLsbD_eq_getElem]))

theorem m160_0 (a b c : U32) : mix160_0 a b c = (fld 5 0 c ++ fld 31 25 b ++ fld 24 19 a).setWidth 32 := by bits
theorem m160_1 (a b c : U32) : mix160_1 a b c = (fld 11 6 c ++ fld 5 0 b ++ fld 31 25 a).setWidth 32 := by bits
theorem m160_2 (a b c : U32) : mix160_2 a b c = (fld 18 12 c ++ fld 11 6 b ++ fld 5 0 a).setWidth 32 := by bits
theorem m160_3 (a b c : U32) : mix160_3 a b c = (fld 24 19 c ++ fld 18 12 b ++ fld 11 6 a).setWidth 32 := by bits
theorem m160_4 (a b c : U32) : mix160_4 a b c = (fld 31 25 c ++ fld 24 19 b ++ fld 18 12 a).setWidth 32 := by bits
theorem m192_0 (b c : U32) : mix192_0 b c = (fld 4 0 c ++ fld 31 26 b).setWidth 32 := by bits
theorem m192_1 (b c : U32) : mix192_1 b c = (fld 9 5 c ++ fld 4 0 b).setWidth 32 := by bits
theorem m192_2 (b c : U32) : mix192_2 b c = (fld 15 10 c ++ fld 9 5 b).setWidth 32 := by bits
theorem m192_3 (b c : U32) : mix192_3 b c = (fld 20 16 c ++ fld 15 10 b).setWidth 32 := by bits
theorem m192_4 (b c : U32) : mix192_4 b c = (fld 25 21 c ++ fld 20 16 b).setWidth 32 := by bits
theorem m192_5 (b c : U32) : mix192_5 b c = (fld 31 26 c ++ fld 25 21 b).setWidth 32 := by bits
theorem m224_0 (c : U32) : ((c >>> 27) &&& 0x1F) = (fld 31 27 c).setWidth 32 := by bits
theorem m224_1 (c : U32) : ((c >>> 22) &&& 0x1F) = (fld 26 22 c).setWidth 32 := by bits
theorem m224_2 (c : U32) : ((c >>> 18) &&& 0x0F) = (fld 21 18 c).setWidth 32 := by bits
theorem m224_3 (c : U32) : ((c >>> 13) &&& 0x1F) = (fld 17 13 c).setWidth 32 := by bits
theorem m224_4 (c : U32) : ((c >>> 9) &&& 0x0F) = (fld 12 9 c).setWidth 32 := by bits
theorem m224_5 (c : U32) : ((c >>> 4) &&& 0x1F) = (fld 8 4 c).setWidth 32 := by bits
theorem m224_6 (c : U32) : (c &&& 0x0F) = (fld 3 0 c).setWidth 32 := by bits

theorem flat4 (a b c d : U32) : le32 a ++ le32 b ++ le32 c ++ le32 d = [a, b, c, d].flatMap le32 := by simp [List.append_assoc]
theorem flat5 (a b c d e : U32) : le32 a ++ le32 b ++ le32 c ++ le32 d ++ le32 e = [a, b, c, d, e].flatMap le32 := by simp [List.append_assoc]
theorem flat6 (a b c d e f : U32) : le32 a ++ le32 b ++ le32 c ++ le32 d ++ le32 e ++ le32 f = [a, b, c, d, e, f].flatMap le32 := by simp [List.append_assoc]
theorem flat7 (a b c d e f g : U32) : le32 a ++ le32 b ++ le32 c ++ le32 d ++ le32 e ++ le32 f ++ le32 g = [a, b, c, d, e, f, g].flatMap le32 := by simp [List.append_assoc]
theorem flat8 (a b c d e f g h : U32) : le32 a ++ le32 b ++ le32 c ++ le32 d ++ le32 e ++ le32 f ++ le32 g ++ le32 h = [a, b, c, d, e, f, g, h].flatMap le32 := by simp [List.append_assoc]

theorem output_eq (olen : Nat) (h : olen = 4 ∨ olen = 5 ∨ olen = 6 ∨ olen = 7 ∨ olen = 8) (s : S8) :
    writeOutput olen s = (Spec.Haval.tailor (32 * olen) (reg0 s)).flatMap le32 := by
  rcases h with rfl | rfl | rfl | rfl | rfl
  · show write128 s = _
    unfold write128
    rw [m128_0, m128_8, m128_16, m128_24, flat4]; rfl
  · show write160 s = _
    unfold write160
    rw [m160_0, m160_1, m160_2, m160_3, m160_4, flat5]; rfl
  · show write192 s = _
    unfold write192
    rw [m192_0, m192_1, m192_2, m192_3, m192_4, m192_5, flat6]; rfl
  · show write224 s = _
    unfold write224
    rw [m224_0, m224_1, m224_2, m224_3, m224_4, m224_5, m224_6, flat7]; rfl
  · show write256 s = _
    unfold write256
    rw [flat8]; rfl

/-! The object -/

def St (p : Nat) (s : S8) (m : Bytes) : Prop := reg0 s = (fullBlocks 128 m).foldl (compress p) Spec.Haval.init

structure Rep (p olen : Nat) (d : Digest) (m : Bytes) : Prop where
  hp : d.passes = p
  ho : d.olen = olen
  buf : LoopRep 128 128 (St p) d.s d.x d.nx m
  len : d.len = BitVec.ofNat 64 m.length

theorem reset_rep (d : Digest) : Rep d.passes d.olen d.reset [] := by
  refine ⟨rfl, rfl, LoopRep.init _ _ _ _ ?_, rfl⟩
  show _ = List.foldl _ _ (fullBlocks 128 [])
  rw [fullBlocks_nil]; rfl

theorem write_rep (p olen : Nat) (hp : p = 3 ∨ p = 4 ∨ p = 5) (d : Digest) (m q : Bytes) (h : Rep p olen d m) : Rep p olen (d.write q).1 (m ++ q) := by
  refine ⟨h.hp, h.ho, ?_, ?_⟩
  · unfold Digest.write
    dsimp only
    rw [h.hp]
    refine loopWrite_rep 128 128 (by omega) (Nat.le_refl _) (St p) _ _ ?_ ?_ (q.length + 1) d.s d.x d.nx m q h.buf (by omega)
    · intro s x m q hR hx _ ht hf _
      unfold St at *
      rw [hf, List.foldl_append, ← hR, processBlock_eq p hp, ← ht, List.take_of_length_le (by omega)]; rfl
    · intro s m q hR _ hf _
      unfold St at *
      rw [hf]; exact hR
  · unfold Digest.write
    dsimp only
    rw [h.len, ← BitVec.ofNat_add, List.length_append]

theorem zeros_loop (p olen : Nat) (hp : p = 3 ∨ p = 4 ∨ p = 5) (a b : Nat) (d : Digest) (m : Bytes) (h : Rep p olen d m) :
    Rep p olen (forLoop a b (fun d _ => (d.write [0x00]).1) d) (m ++ zeros (b - a)) := by
  by_cases hab : a ≤ b
  · refine forLoop_inv (a := a) (b := b) (s := d) (body := fun d _ => (d.write [0x00]).1) (fun k d => Rep p olen d (m ++ zeros (k - a))) hab ?_ ?_
    · rw [Nat.sub_self]; simpa [zeros] using h
    · intro k s hk1 hk2 hs
      have := write_rep p olen hp s _ [0x00] hs
      rw [List.append_assoc] at this
      rw [show k + 1 - a = (k - a) + 1 by omega, show zeros (k - a + 1) = zeros (k - a) ++ [0x00] from by unfold zeros; exact List.replicate_succ']
      exact this
  · unfold forLoop
    rw [show b - a = 0 by omega]
    simpa [zeros] using h

theorem len_eq (n : Nat) : (((BitVec.ofNat 64 n / 128) <<< 7) + BitVec.ofNat 64 (n % 128)) <<< 3 = BitVec.ofNat 64 (8 * n) := by
  apply BitVec.eq_of_toNat_eq
  simp only [BitVec.toNat_shiftLeft, BitVec.toNat_add, BitVec.toNat_udiv, BitVec.toNat_ofNat, Nat.shiftLeft_eq]
  rw [show (128 : U64).toNat = 128 from rfl]
  simp only [Nat.reducePow, Nat.reduceMod]
  omega

theorem le64_halves (v : U64) : le32 (v.setWidth 32) ++ le32 ((v >>> 32).setWidth 32) = le64 v := by
  have h : ∀ i, i < 4 → (v.setWidth 32).extractLsb' (8 * i) 8 = v.extractLsb' (8 * i) 8 := by
    intro i hi
    apply BitVec.eq_of_getLsbD_eq
    intro j hj
    interval_cases i <;> interval_cases j <;> simp [-BitVec.getLsbD_eq_getElem]
  have h2 : ∀ i, i < 4 → ((v >>> 32).setWidth 32).extractLsb' (8 * i) 8 = v.extractLsb' (32 + 8 * i) 8 := by
    intro i hi
    apply BitVec.eq_of_getLsbD_eq
    intro j hj
    interval_cases i <;> interval_cases j <;> simp [-BitVec.getLsbD_eq_getElem]
  unfold le32 le64
  simp only [List.cons_append, List.nil_append, List.cons.injEq, and_true]
  exact ⟨h 0 (by omega), h 1 (by omega), h 2 (by omega), h 3 (by omega), h2 0 (by omega), h2 1 (by omega), h2 2 (by omega), h2 3 (by omega)⟩

theorem padBuf_eq (p olen n : Nat) (hp : p = 3 ∨ p = 4 ∨ p = 5) (ho : olen = 4 ∨ olen = 5 ∨ olen = 6 ∨ olen = 7 ∨ olen = 8) (v : U64) (hv : v = BitVec.ofNat 64 n) :
    ([0x01 ||| BitVec.ofNat 8 (p <<< 3), BitVec.ofNat 8 (olen <<< 3)] ++ le32 (v.setWidth 32) ++ le32 ((v >>> 32).setWidth 32) : Bytes) = Spec.Haval.trailer p (32 * olen) n := by
  unfold Spec.Haval.trailer
  rw [List.append_assoc, le64_halves, hv]
  congr 1
  rcases hp with rfl | rfl | rfl <;> rcases ho with rfl | rfl | rfl | rfl | rfl <;> rfl

theorem checkSum_eq (p olen : Nat) (hp : p = 3 ∨ p = 4 ∨ p = 5) (ho : olen = 4 ∨ olen = 5 ∨ olen = 6 ∨ olen = 7 ∨ olen = 8) (d : Digest) (m : Bytes)
    (h : Rep p olen d m) : d.checkSum = Spec.Haval.hash p (32 * olen) m := by
  have hnx : d.nx = m.length % 128 := by rw [h.buf.hnx, restBlock_length]
  have hlt := h.buf.nx_lt (by omega : 0 < 128)
  unfold Digest.checkSum
  dsimp only
  rw [h.len, hnx, len_eq, h.hp, h.ho, padBuf_eq p olen (8 * m.length) hp ho _ rfl]
  have r1 := write_rep p olen hp d m [0x01] h
  have r2 := zeros_loop p olen hp (m.length % 128 + 1) ((m.length % 128 + 138) / 128 * 128 - 10) _ _ r1
  have r3 := write_rep p olen hp _ _ (Spec.Haval.trailer p (32 * olen) (8 * m.length)) r2
  rw [r3.ho, output_eq olen ho, r3.buf.st]
  unfold Spec.Haval.hash Spec.Haval.pad
  have e : (m.length % 128 + 138) / 128 * 128 - 10 - (m.length % 128 + 1) = (118 + 128 - (m.length + 1) % 128) % 128 := by omega
  rw [e, List.append_assoc m [0x01]]
  rfl

end Verif.Haval
