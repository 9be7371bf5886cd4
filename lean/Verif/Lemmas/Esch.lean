import Verif.Model.Esch
import Verif.Spec.Esch
import Verif.Bits
namespace Verif.Esch
open Verif.Spec.Esch (Branch)

/-- The first `n` branches of the flat state. -/
def toSt (n : Nat) (H : List U32) : List Branch := (List.range n).map fun j => (H.getD (2 * j) 0, H.getD (2 * j + 1) 0)

theorem cases16 {P : List U32 → Prop} (h : ∀ a0 a1 a2 a3 a4 a5 a6 a7 a8 a9 a10 a11 a12 a13 a14 a15 : U32,
    P [a0, a1, a2, a3, a4, a5, a6, a7, a8, a9, a10, a11, a12, a13, a14, a15]) (H : List U32) (hl : H.length = 16) : P H := by
  match H, hl with
  | [a0, a1, a2, a3, a4, a5, a6, a7, a8, a9, a10, a11, a12, a13, a14, a15], _ => exact h ..

theorem rotater_eq (x : U32) (n : Nat) (h : n < 32) (h0 : 0 < n) : rotater32 x n = x.rotateRight n := by
  unfold rotater32
  rw [BitVec.rotateLeft_def, BitVec.rotateRight_def, Nat.mod_eq_of_lt (by omega : 32 - n < 32), Nat.mod_eq_of_lt (by omega : n < 32),
    BitVec.or_comm, show 32 - (32 - n) = n by omega]
theorem rotater16 (x : U32) : rotater32 x 16 = x.rotateLeft 16 := rfl

theorem box_eq (c x y : U32) : box c x y = Spec.Esch.alzette c (x, y) := by
  unfold box Spec.Esch.alzette
  simp only [rotater_eq _ _ (by decide : 31 < 32) (by decide), rotater_eq _ _ (by decide : 24 < 32) (by decide),
    rotater_eq _ _ (by decide : 17 < 32) (by decide), rotater_eq _ _ (by decide : 16 < 32) (by decide)]
  have h0 : ∀ z : U32, z.rotateRight 0 = z := by
    intro z
    rw [BitVec.rotateRight_def]
    simp
  simp only [h0]

theorem C_eq : C = Spec.Esch.c := rfl

theorem ell_eq (z : U32) : rotater32 (z ^^^ (z <<< 16)) 16 = Spec.Esch.ell z := rfl

theorem boxes_length (n : Nat) (H : List U32) : (boxes n H).length = H.length := by
  unfold boxes
  refine forLoop_inv (fun _ (G : List U32) => G.length = H.length) (Nat.zero_le _) rfl ?_
  intro j G _ _ h
  simp only [List.length_set]; exact h

section
attribute [local irreducible] Spec.Esch.alzette Spec.Esch.ell

theorem constants_eq6 (s : Nat) (H : List U32) (hl : H.length = 16) : toSt 6 (constants s H) =
    ((toSt 6 H).set 0 (((toSt 6 H).getD 0 (0, 0)).1, ((toSt 6 H).getD 0 (0, 0)).2 ^^^ Spec.Esch.c.getD (s % 8) 0)).set 1
      (((toSt 6 H).getD 1 (0, 0)).1, ((toSt 6 H).getD 1 (0, 0)).2 ^^^ BitVec.ofNat 32 s) := by
  revert hl H
  exact cases16 (fun _ _ _ _ _ _ _ _ _ _ _ _ _ _ _ _ => rfl)
theorem constants_eq8 (s : Nat) (H : List U32) (hl : H.length = 16) : toSt 8 (constants s H) =
    ((toSt 8 H).set 0 (((toSt 8 H).getD 0 (0, 0)).1, ((toSt 8 H).getD 0 (0, 0)).2 ^^^ Spec.Esch.c.getD (s % 8) 0)).set 1
      (((toSt 8 H).getD 1 (0, 0)).1, ((toSt 8 H).getD 1 (0, 0)).2 ^^^ BitVec.ofNat 32 s) := by
  revert hl H
  exact cases16 (fun _ _ _ _ _ _ _ _ _ _ _ _ _ _ _ _ => rfl)
theorem constants_length (s : Nat) (H : List U32) : (constants s H).length = H.length := by
  simp only [constants, List.length_set]

end

theorem boxes_get (n : Nat) (H : List U32) (hl : 2 * n ≤ H.length) : ∀ i, i < n →
    ((boxes n H).getD (2 * i) 0, (boxes n H).getD (2 * i + 1) 0) = Spec.Esch.alzette (Spec.Esch.c.getD i 0) (H.getD (2 * i) 0, H.getD (2 * i + 1) 0) := by
  unfold boxes
  have := forLoop_inv (a := 0) (b := n) (s := H) (body := fun (H : List U32) j =>
      let (x, y) := box (C.getD j 0) (H.getD (2 * j) 0) (H.getD (2 * j + 1) 0)
      (H.set (2 * j) x).set (2 * j + 1) y)
    (fun j (G : List U32) => G.length = H.length ∧ ∀ i, i < n → (G.getD (2 * i) 0, G.getD (2 * i + 1) 0) =
      if i < j then Spec.Esch.alzette (Spec.Esch.c.getD i 0) (H.getD (2 * i) 0, H.getD (2 * i + 1) 0)
      else (H.getD (2 * i) 0, H.getD (2 * i + 1) 0)) (Nat.zero_le _) ⟨rfl, fun i _ => by rw [if_neg (by omega)]⟩ ?_
  · intro i hi
    have := this.2 i hi
    rw [if_pos hi] at this
    exact this
  · rintro j G _ hj ⟨h1, h2⟩
    refine ⟨by simp only [List.length_set]; exact h1, ?_⟩
    intro i hi
    simp only [getD_set, List.length_set]
    have hb := box_eq (C.getD j 0) (G.getD (2 * j) 0) (G.getD (2 * j + 1) 0)
    have hj' := h2 j hj
    rw [if_neg (by omega)] at hj'
    rw [hj', C_eq] at hb
    rw [C_eq]
    by_cases he : i = j
    · subst he
      rw [if_pos (by omega : i < i + 1), if_neg (by omega), if_pos (by omega), if_pos (by omega), ← hb]
    · have h3 := h2 i hi
      rw [if_neg (by omega), if_neg (by omega), if_neg (by omega), if_neg (by omega), h3]
      by_cases hlt : i < j
      · rw [if_pos hlt, if_pos (by omega)]
      · rw [if_neg hlt, if_neg (by omega)]

theorem boxes_eq (n : Nat) (H : List U32) (hl : 2 * n ≤ H.length) : toSt n (boxes n H) =
    (toSt n H).zipIdx.map fun (b, i) => Spec.Esch.alzette (Spec.Esch.c.getD i 0) b := by
  apply List.ext_getElem
  · simp [toSt]
  · intro i h1 h2
    have hi : i < n := by simpa [toSt] using h1
    have := boxes_get n H hl i hi
    simp [toSt]
    simpa using this

theorem mixLoop6 (x y a0 a1 a2 a3 a4 a5 a6 a7 a8 a9 a10 a11 a12 a13 a14 a15 : U32) :
    shuffle 6 (mixLoop 6 x y [a0, a1, a2, a3, a4, a5, a6, a7, a8, a9, a10, a11, a12, a13, a14, a15]) =
    [a8 ^^^ (a2 ^^^ y), a9 ^^^ (a3 ^^^ x), a10 ^^^ (a4 ^^^ y), a11 ^^^ (a5 ^^^ x), a6 ^^^ (a0 ^^^ y), a7 ^^^ (a1 ^^^ x),
      a0, a1, a2, a3, a4, a5, a12, a13, a14, a15] := by simp [shuffle, mixLoop, forLoop, List.range', List.foldl]
theorem mixLoop8 (x y a0 a1 a2 a3 a4 a5 a6 a7 a8 a9 a10 a11 a12 a13 a14 a15 : U32) :
    shuffle 8 (mixLoop 8 x y [a0, a1, a2, a3, a4, a5, a6, a7, a8, a9, a10, a11, a12, a13, a14, a15]) =
    [a10 ^^^ (a2 ^^^ y), a11 ^^^ (a3 ^^^ x), a12 ^^^ (a4 ^^^ y), a13 ^^^ (a5 ^^^ x), a14 ^^^ (a6 ^^^ y), a15 ^^^ (a7 ^^^ x),
      a8 ^^^ (a0 ^^^ y), a9 ^^^ (a1 ^^^ x), a0, a1, a2, a3, a4, a5, a6, a7] := by simp [shuffle, mixLoop, forLoop, List.range', List.foldl]

theorem linear_eq6 (H : List U32) (hl : H.length = 16) : toSt 6 (shuffle 6 (mix 6 H)) = Spec.Esch.linear (toSt 6 H) ∧
    (shuffle 6 (mix 6 H)).length = 16 := by
  revert hl H
  refine cases16 (fun a0 a1 a2 a3 a4 a5 a6 a7 a8 a9 a10 a11 a12 a13 a14 a15 => ?_)
  unfold mix
  rw [mixLoop6]
  refine ⟨?_, rfl⟩
  rw [show toSt 6 [a0, a1, a2, a3, a4, a5, a6, a7, a8, a9, a10, a11, a12, a13, a14, a15] =
    [(a0, a1), (a2, a3), (a4, a5), (a6, a7), (a8, a9), (a10, a11)] from rfl]
  unfold Spec.Esch.linear
  simp only [ell_eq, gt_iff_lt, Nat.lt_irrefl, if_false]
  simp [toSt, List.range, List.range.loop]
theorem linear_eq8 (H : List U32) (hl : H.length = 16) : toSt 8 (shuffle 8 (mix 8 H)) = Spec.Esch.linear (toSt 8 H) ∧
    (shuffle 8 (mix 8 H)).length = 16 := by
  revert hl H
  refine cases16 (fun a0 a1 a2 a3 a4 a5 a6 a7 a8 a9 a10 a11 a12 a13 a14 a15 => ?_)
  unfold mix
  rw [mixLoop8]
  refine ⟨?_, rfl⟩
  rw [show toSt 8 [a0, a1, a2, a3, a4, a5, a6, a7, a8, a9, a10, a11, a12, a13, a14, a15] =
    [(a0, a1), (a2, a3), (a4, a5), (a6, a7), (a8, a9), (a10, a11), (a12, a13), (a14, a15)] from rfl]
  unfold Spec.Esch.linear
  simp only [ell_eq, gt_iff_lt, (by decide : 6 < 8), if_true]
  simp [toSt, List.range, List.range.loop]

theorem step_eq6 (s : Nat) (H : List U32) (hl : H.length = 16) :
    toSt 6 (shuffle 6 (mix 6 (boxes 6 (constants s H)))) = Spec.Esch.step s (toSt 6 H) ∧
    (shuffle 6 (mix 6 (boxes 6 (constants s H)))).length = 16 := by
  have h1 : (constants s H).length = 16 := by rw [constants_length, hl]
  have h2 : (boxes 6 (constants s H)).length = 16 := by rw [boxes_length, h1]
  refine ⟨?_, (linear_eq6 _ h2).2⟩
  rw [(linear_eq6 _ h2).1, boxes_eq 6 _ (by omega), constants_eq6 s H hl]
  rfl
theorem step_eq8 (s : Nat) (H : List U32) (hl : H.length = 16) :
    toSt 8 (shuffle 8 (mix 8 (boxes 8 (constants s H)))) = Spec.Esch.step s (toSt 8 H) ∧
    (shuffle 8 (mix 8 (boxes 8 (constants s H)))).length = 16 := by
  have h1 : (constants s H).length = 16 := by rw [constants_length, hl]
  have h2 : (boxes 8 (constants s H)).length = 16 := by rw [boxes_length, h1]
  refine ⟨?_, (linear_eq8 _ h2).2⟩
  rw [(linear_eq8 _ h2).1, boxes_eq 8 _ (by omega), constants_eq8 s H hl]
  rfl

theorem sparkle_eq6 (ns : Nat) (H : List U32) (hl : H.length = 16) :
    toSt 6 (sparkle 6 ns H) = Spec.Esch.sparkle ns (toSt 6 H) ∧ (sparkle 6 ns H).length = 16 := by
  unfold sparkle Spec.Esch.sparkle
  induction ns with
  | zero => exact ⟨rfl, hl⟩
  | succ n ih =>
    rw [forLoop_succ _ _ _ _ (Nat.zero_le _), List.range_succ, List.foldl_append]
    simp only [List.foldl_cons, List.foldl_nil]
    rw [← ih.1]
    exact step_eq6 n _ ih.2
theorem sparkle_eq8 (ns : Nat) (H : List U32) (hl : H.length = 16) :
    toSt 8 (sparkle 8 ns H) = Spec.Esch.sparkle ns (toSt 8 H) ∧ (sparkle 8 ns H).length = 16 := by
  unfold sparkle Spec.Esch.sparkle
  induction ns with
  | zero => exact ⟨rfl, hl⟩
  | succ n ih =>
    rw [forLoop_succ _ _ _ _ (Nat.zero_le _), List.range_succ, List.foldl_append]
    simp only [List.foldl_cons, List.foldl_nil]
    rw [← ih.1]
    exact step_eq8 n _ ih.2

/-- The two instances of the package. -/
def Var (hs r : Nat) (I : Spec.Esch.Instance) : Prop :=
  (hs = 256 ∧ r = 6 ∧ I = Spec.Esch.esch256) ∨ (hs = 384 ∧ r = 8 ∧ I = Spec.Esch.esch384)

theorem sparkle_eq {hs r : Nat} {I : Spec.Esch.Instance} (h : Var hs r I) (ns : Nat) (H : List U32) (hl : H.length = 16) :
    toSt r (sparkle r ns H) = Spec.Esch.sparkle ns (toSt r H) ∧ (sparkle r ns H).length = 16 := by
  rcases h with ⟨_, rfl, _⟩ | ⟨_, rfl, _⟩
  · exact sparkle_eq6 ns H hl
  · exact sparkle_eq8 ns H hl

theorem xor3 (a b c : U32) : a ^^^ b ^^^ c = a ^^^ (b ^^^ c) := BitVec.xor_assoc ..

theorem inject_length (hs : Nat) (H : List U32) (data : Bytes) (blk : Nat) : (inject hs H data blk).length = H.length := by
  unfold inject
  by_cases h : hs > 256 <;> simp [h]

theorem inject_eq {hs r : Nat} {I : Spec.Esch.Instance} (h : Var hs r I) (H : List U32) (hl : H.length = 16) (data b : Bytes) (blk : Nat)
    (h0 : getLE32 data (16 * blk) = getLE32 b 0) (h1 : getLE32 data (16 * blk + 4) = getLE32 b 4)
    (h2 : getLE32 data (16 * blk + 8) = getLE32 b 8) (h3 : getLE32 data (16 * blk + 12) = getLE32 b 12) :
    toSt r (inject hs H data blk) = Spec.Esch.inject (toSt r H) b := by
  unfold inject Spec.Esch.inject
  rw [h0, h1, h2, h3]
  generalize getLE32 b 0 = m0
  generalize getLE32 b 4 = m1
  generalize getLE32 b 8 = m2
  generalize getLE32 b 12 = m3
  revert hl H
  rcases h with ⟨rfl, rfl, _⟩ | ⟨rfl, rfl, _⟩
  · refine cases16 (fun a0 a1 a2 a3 a4 a5 a6 a7 a8 a9 a10 a11 a12 a13 a14 a15 => ?_)
    simp [toSt, List.range, List.range.loop, ell_eq, List.zipIdx]
  · refine cases16 (fun a0 a1 a2 a3 a4 a5 a6 a7 a8 a9 a10 a11 a12 a13 a14 a15 => ?_)
    simp [toSt, List.range, List.range.loop, ell_eq, List.zipIdx]

theorem addConst_eq {hs r : Nat} {I : Spec.Esch.Instance} (h : Var hs r I) (H : List U32) (hl : H.length = 16) (k w : U32) (hk : w = k <<< 24) :
    toSt r (H.set ((hs + 128) / 64 - 1) (H.getD ((hs + 128) / 64 - 1) 0 ^^^ w)) = Spec.Esch.addConst (toSt r H) k := by
  subst hk
  unfold Spec.Esch.addConst
  revert hl H
  rcases h with ⟨rfl, rfl, _⟩ | ⟨rfl, rfl, _⟩
  · refine cases16 (fun a0 a1 a2 a3 a4 a5 a6 a7 a8 a9 a10 a11 a12 a13 a14 a15 => ?_)
    simp [toSt, List.range, List.range.loop]
  · refine cases16 (fun a0 a1 a2 a3 a4 a5 a6 a7 a8 a9 a10 a11 a12 a13 a14 a15 => ?_)
    simp [toSt, List.range, List.range.loop]

theorem rate_eq {hs r : Nat} {I : Spec.Esch.Instance} (h : Var hs r I) (H : List U32) (hl : H.length = 16) :
    (H.map le32).flatten.take 16 = Spec.Esch.rate (toSt r H) := by
  revert hl H
  rcases h with ⟨rfl, rfl, _⟩ | ⟨rfl, rfl, _⟩
  · refine cases16 (fun a0 a1 a2 a3 a4 a5 a6 a7 a8 a9 a10 a11 a12 a13 a14 a15 => ?_)
    simp [toSt, List.range, List.range.loop, le32, Spec.Esch.rate]
  · refine cases16 (fun a0 a1 a2 a3 a4 a5 a6 a7 a8 a9 a10 a11 a12 a13 a14 a15 => ?_)
    simp [toSt, List.range, List.range.loop, le32, Spec.Esch.rate]

theorem output_step (hs fuel : Nat) (s : List U32) (first : Bool) (n : Nat) : output hs (fuel + 1) s first (16 + n) =
    ((if first then s else sparkle (if hs > 256 then 8 else 6) (if hs > 256 then 8 else 7) s).map le32).flatten.take 16 ++
      output hs fuel (if first then s else sparkle (if hs > 256 then 8 else 6) (if hs > 256 then 8 else 7) s) false n := by
  rw [output, if_pos (by omega)]
  simp only [Nat.min_eq_right (by omega : 16 ≤ 16 + n), Nat.add_sub_cancel_left]
theorem output_zero (hs fuel : Nat) (s : List U32) (first : Bool) : output hs fuel s first 0 = [] := by
  cases fuel <;> rfl

theorem output_eq {hs r : Nat} {I : Spec.Esch.Instance} (h : Var hs r I) (H : List U32) (hl : H.length = 16) :
    output hs (hs / 8) H true (hs / 8) = Spec.Esch.squeeze I I.outBlocks (toSt r H) := by
  have key : ∀ G : List U32, G.length = 16 → toSt r (sparkle r I.slim G) = Spec.Esch.sparkle I.slim (toSt r G) ∧
    (sparkle r I.slim G).length = 16 := fun G hG => sparkle_eq h I.slim G hG
  have kr := fun G hG => rate_eq h G hG
  rcases h with ⟨rfl, rfl, rfl⟩ | ⟨rfl, rfl, rfl⟩
  · have e1 := output_step 256 31 H true 16
    have e2 := output_step 256 30 H false 0
    rw [show (256 / 8 : Nat) = 31 + 1 from rfl]
    rw [show (31 + 1 : Nat) = 16 + 16 from rfl, e1] 
    rw [show (31 : Nat) = 30 + 1 from rfl, show (16 : Nat) = 16 + 0 from rfl]
    rw [output_step, output_zero]
    simp only [if_true, Bool.false_eq_true, if_false, gt_iff_lt, Nat.lt_irrefl, Nat.add_zero]
    have k1 := key H hl
    simp only [Spec.Esch.esch256] at k1
    rw [kr _ hl, kr _ k1.2, k1.1]
    rfl
  · rw [show (384 / 8 : Nat) = 47 + 1 from rfl]
    rw [show output 384 (47 + 1) H true (47 + 1) = output 384 (47 + 1) H true (16 + (16 + (16 + 0))) from rfl,
      output_step, show (47 : Nat) = 46 + 1 from rfl, output_step, show (46 : Nat) = 45 + 1 from rfl, output_step, output_zero]
    simp only [if_true, Bool.false_eq_true, if_false, gt_iff_lt, (by decide : 256 < 384)]
    have k1 := key H hl
    have k2 := key _ k1.2
    simp only [Spec.Esch.esch384] at k1 k2
    rw [kr _ hl, kr _ k1.2, kr _ k2.2, k2.1, k1.1]
    rfl

/-- Absorbing one block that is not the last. -/
def F (I : Spec.Esch.Instance) (st : List Branch) (b : Bytes) : List Branch := Spec.Esch.sparkle I.slim (Spec.Esch.inject st b)

theorem at8_block (data : Bytes) (k i : Nat) (hi : i < 16) : at8 data (16 * k + i) = at8 ((data.drop (16 * k)).take 16) i := by
  unfold at8
  simp [List.getD_eq_getElem?_getD, List.getElem?_take, hi]
theorem getLE32_block (data : Bytes) (k i : Nat) (hi : i + 3 < 16) : getLE32 data (16 * k + i) = getLE32 ((data.drop (16 * k)).take 16) i := by
  unfold getLE32
  have h1 := at8_block data k (i + 1) (by omega)
  have h2 := at8_block data k (i + 2) (by omega)
  have h3 := at8_block data k (i + 3) (by omega)
  rw [← Nat.add_assoc] at h1 h2 h3
  rw [at8_block data k i (by omega), h1, h2, h3]

theorem take_succ_block (data : Bytes) (k : Nat) (h : 16 * (k + 1) ≤ data.length) :
    fullBlocks 16 (data.take (16 * (k + 1))) = fullBlocks 16 (data.take (16 * k)) ++ [(data.drop (16 * k)).take 16] := by
  rw [show 16 * (k + 1) = 16 * k + 16 by omega, List.take_add, fullBlocks_append 16 _ _ (by omega)
    (by rw [List.length_take]; omega), fullBlocks_one 16 ((data.drop (16 * k)).take 16) (by omega) (by rw [List.length_take, List.length_drop]; omega)]

theorem transform_eq {hs r : Nat} {I : Spec.Esch.Instance} (h : Var hs r I) (H : List U32) (hl : H.length = 16) (data : Bytes) (n : Nat)
    (hn : 16 * n ≤ data.length) : toSt r (transform hs H data n false) = (fullBlocks 16 (data.take (16 * n))).foldl (F I) (toSt r H) ∧
      (transform hs H data n false).length = 16 := by
  unfold transform
  refine forLoop_inv (fun k (G : List U32) => toSt r G = (fullBlocks 16 (data.take (16 * k))).foldl (F I) (toSt r H) ∧ G.length = 16)
    (Nat.zero_le _) ⟨by rw [Nat.mul_zero, List.take_zero, fullBlocks_nil]; rfl, hl⟩ ?_
  rintro k G _ hk ⟨h1, h2⟩
  rw [take_succ_block data k (by omega), List.foldl_append, ← h1]
  have hi := inject_eq h G h2 data ((data.drop (16 * k)).take 16) k (getLE32_block data k 0 (by omega))
    (getLE32_block data k 4 (by omega)) (getLE32_block data k 8 (by omega)) (getLE32_block data k 12 (by omega))
  have hil : (inject hs G data k).length = 16 := by rw [inject_length, h2]
  have hs := sparkle_eq h I.slim _ hil
  rw [hi] at hs
  simp only [List.foldl_cons, List.foldl_nil, F]
  rcases h with ⟨rfl, rfl, rfl⟩ | ⟨rfl, rfl, rfl⟩
  · exact hs
  · exact hs

theorem transform_last {hs r : Nat} {I : Spec.Esch.Instance} (h : Var hs r I) (H : List U32) (hl : H.length = 16) (data : Bytes) :
    toSt r (transform hs H data 1 true) = Spec.Esch.sparkle I.big (Spec.Esch.inject (toSt r H) (data.take 16)) ∧
      (transform hs H data 1 true).length = 16 := by
  have hi := inject_eq h H hl data ((data.drop (16 * 0)).take 16) 0 (getLE32_block data 0 0 (by omega))
    (getLE32_block data 0 4 (by omega)) (getLE32_block data 0 8 (by omega)) (getLE32_block data 0 12 (by omega))
  have hil : (inject hs H data 0).length = 16 := by rw [inject_length, hl]
  have hs := sparkle_eq h I.big _ hil
  rw [hi] at hs
  unfold transform
  rw [forLoop_cons _ _ _ _ (by omega), forLoop_nil _ _ _ _ (by omega)]
  rcases h with ⟨rfl, rfl, rfl⟩ | ⟨rfl, rfl, rfl⟩
  · exact hs
  · exact hs

/-- The initial state. -/
def s0 (r : Nat) : List Branch := List.replicate r (0, 0)

/-- Sizes. -/
def Core (d : Digest) : Prop := d.s.length = 16 ∧ d.x.length = 128
/-- The last block is still in the buffer. -/
def Lazy (r : Nat) (I : Spec.Esch.Instance) (d : Digest) (m : Bytes) : Prop :=
  toSt r d.s = (initBlocks 16 m).foldl (F I) (s0 r) ∧ d.nx = (lastBlock 16 m).length ∧ d.x.take d.nx = lastBlock 16 m
/-- All blocks have been absorbed. -/
def Full (r : Nat) (I : Spec.Esch.Instance) (d : Digest) (m : Bytes) : Prop :=
  m.length % 16 = 0 ∧ toSt r d.s = (fullBlocks 16 m).foldl (F I) (s0 r) ∧ d.nx = 0

theorem toSt_zero {hs r : Nat} {I : Spec.Esch.Instance} (h : Var hs r I) : toSt r (List.replicate 16 0) = s0 r := by
  rcases h with ⟨_, rfl, _⟩ | ⟨_, rfl, _⟩ <;> rfl

theorem lazy_new {hs r : Nat} {I : Spec.Esch.Instance} (h : Var hs r I) (d : Digest) :
    Core (reset d) ∧ Lazy r I (reset d) [] := by
  refine ⟨⟨rfl, rfl⟩, ?_, rfl, rfl⟩
  exact toSt_zero h

theorem Lazy.checkSum {hs r : Nat} {I : Spec.Esch.Instance} (h : Var hs r I) {d : Digest} {m : Bytes} (hc : Core d) (hd : Lazy r I d m) :
    checkSum hs d = Spec.Esch.hash I m := by
  obtain ⟨h1, h2, h3⟩ := hd
  have hll := (lastBlock_length 16 m (by omega)).1
  have hb : s0 r = List.replicate I.branches (0, 0) := by
    rcases h with ⟨_, rfl, rfl⟩ | ⟨_, rfl, rfl⟩ <;> rfl
  rw [show F I = (fun st b => Spec.Esch.sparkle I.slim (Spec.Esch.inject st b)) from rfl] at h1
  unfold Esch.checkSum Spec.Esch.hash
  by_cases hlt : (lastBlock 16 m).length < 16
  · have hlt' : d.nx < 16 := by omega
    simp only [if_pos hlt, if_pos hlt']
    have hl1 : ∀ w, (d.s.set ((hs + 128) / 64 - 1) w).length = 16 := fun w => by rw [List.length_set]; exact hc.1
    have ht := transform_last h _ (hl1 (d.s.getD ((hs + 128) / 64 - 1) 0 ^^^ 0x1000000)) ((goCopy d.x d.nx (zeros 128)).set d.nx 0x80#8)
    rw [output_eq h _ ht.2, ht.1, addConst_eq h _ hc.1 1 _ (by decide : (0x1000000 : U32) = 1 <<< 24), h1, hb]
    congr 4
    have hx : goCopy d.x d.nx (zeros 128) = lastBlock 16 m ++ zeros (128 - d.nx) := by
      rw [goCopy_full _ _ _ (by rw [hc.2]; omega) (by rw [hc.2]; simp [zeros]), h3, hc.2, zeros, List.take_replicate, Nat.min_eq_left (by omega)]
      rfl
    rw [hx, h2, List.set_append_right _ _ (Nat.le_refl _), Nat.sub_self]
    obtain ⟨k, hk⟩ := Nat.exists_eq_add_of_lt hlt
    generalize hL : lastBlock 16 m = L at *
    rw [show 128 - L.length = (127 - L.length) + 1 by omega, zeros, List.replicate_succ, List.set_cons_zero,
      List.take_append, List.take_of_length_le (by omega), show 16 - L.length = (15 - L.length) + 1 by omega, List.take_succ_cons,
      List.take_replicate, Nat.min_eq_left (by omega), List.append_assoc]
    rfl
  · have hlt' : ¬ d.nx < 16 := by omega
    simp only [if_neg hlt, if_neg hlt']
    have hl1 : ∀ w, (d.s.set ((hs + 128) / 64 - 1) w).length = 16 := fun w => by rw [List.length_set]; exact hc.1
    have ht := transform_last h _ (hl1 (d.s.getD ((hs + 128) / 64 - 1) 0 ^^^ 0x2000000)) d.x
    rw [output_eq h _ ht.2, ht.1, addConst_eq h _ hc.1 2 _ (by decide : (0x2000000 : U32) = 2 <<< 24), h1, hb]
    have h16 : d.nx = 16 := by omega
    rw [h16] at h3
    rw [h3]

theorem goCopy_take_le {dst src : Bytes} {off k : Nat} (h1 : off ≤ k) (h2 : k ≤ dst.length) (h3 : k ≤ off + src.length) :
    (goCopy dst off src).take k = dst.take off ++ src.take (k - off) := by
  unfold goCopy
  rw [List.append_assoc, List.take_append, List.take_of_length_le (by rw [List.length_take]; omega), List.length_take,
    Nat.min_eq_left (by omega), List.take_append, List.take_take, List.length_take, Nat.min_eq_left (by omega : k - off ≤ dst.length - off)]
  rw [show k - off - min (dst.length - off) src.length = 0 by omega, List.take_zero, List.append_nil]

theorem init_flat (m : Bytes) : (initBlocks 16 m).flatten.length % 16 = 0 ∧ fullBlocks 16 (initBlocks 16 m).flatten = initBlocks 16 m := by
  have hle : (m.length - 1) / 16 * 16 ≤ m.length := by omega
  have e : (initBlocks 16 m).flatten = m.take ((m.length - 1) / 16 * 16) := by
    unfold initBlocks
    rw [fullBlocks_flatten, List.length_take, Nat.min_eq_left hle, Nat.mul_div_cancel _ (by omega), List.take_take, Nat.min_self]
  rw [e]
  exact ⟨by rw [List.length_take]; omega, rfl⟩

/-- From a state in which everything is absorbed. -/
theorem tail_full {hs r : Nat} {I : Spec.Esch.Instance} (h : Var hs r I) {d : Digest} {a : Bytes} (hc : Core d) (hf : Full r I d a) (q : Bytes) :
    Core (keep (bulk hs d q).1 (bulk hs d q).2) ∧
    (if q = [] then Full r I (keep (bulk hs d q).1 (bulk hs d q).2) a else Lazy r I (keep (bulk hs d q).1 (bulk hs d q).2) (a ++ q)) := by
  obtain ⟨h1, h2, h3⟩ := hf
  have hq' : (bulk hs d q).2 = lastBlock 16 q := by
    unfold bulk
    split
    · rfl
    · rw [lastBlock_le (by omega) (by omega)]
  have hd' : (bulk hs d q).1.x = d.x ∧ (bulk hs d q).1.nx = 0 ∧ (bulk hs d q).1.s.length = 16 ∧
      toSt r (bulk hs d q).1.s = (initBlocks 16 q).foldl (F I) (toSt r d.s) := by
    unfold bulk
    split
    · rename_i hq
      have hle : (q.length - 1) / 16 * 16 ≤ q.length := by omega
      have ht := transform_eq h d.s hc.1 (q.take ((q.length - 1) / 16 * 16)) ((q.length - 1) / 16) (by rw [List.length_take]; omega)
      refine ⟨rfl, h3, ht.2, ?_⟩
      show toSt r (transform _ _ _ _ _) = _
      rw [ht.1, List.take_take, show min (16 * ((q.length - 1) / 16)) ((q.length - 1) / 16 * 16) = (q.length - 1) / 16 * 16 by omega]
      rfl
    · rw [initBlocks_le (by omega) (by omega)]
      exact ⟨rfl, h3, hc.1, rfl⟩
  generalize hb : bulk hs d q = b at *
  obtain ⟨d', q'⟩ := b
  simp only at hq' hd' ⊢
  obtain ⟨g1, g2, g3, g4⟩ := hd'
  have hll := (lastBlock_length 16 q (by omega)).1
  have hx : (goCopy d'.x d'.nx q').length = 128 := by rw [goCopy_length _ _ _ (by omega), g1, hc.2]
  refine ⟨⟨g3, hx⟩, ?_⟩
  by_cases hq : q = []
  · rw [if_pos hq]
    subst hq
    exact ⟨h1, by show toSt r d'.s = _; rw [g4, h2]; rfl, by show d'.nx + q'.length = 0; rw [g2, hq']; rfl⟩
  · rw [if_neg hq]
    refine ⟨?_, ?_, ?_⟩
    · show toSt r d'.s = _
      rw [g4, h2, initBlocks_append (by omega) h1 hq, List.foldl_append]
    · show d'.nx + q'.length = _
      rw [g2, hq', lastBlock_append (by omega) h1 hq, Nat.zero_add]
    · show (goCopy d'.x d'.nx q').take (d'.nx + q'.length) = _
      rw [goCopy_take _ _ _ (by rw [g1, g2, hc.2, hq']; omega), g2, hq', lastBlock_append (by omega) h1 hq]
      rfl

theorem fill_eq (hs : Nat) (d : Digest) (p : Bytes) (h : 0 < d.nx) (h2 : 16 ≤ d.nx + p.length) : fill hs d p =
    ({ s := transform hs d.s (goCopy d.x d.nx p) 1 false, x := goCopy d.x d.nx p, nx := 0 : Digest }, p.drop (16 - d.nx)) := by
  unfold fill
  rw [if_pos ⟨h, h2⟩]
theorem fill_no (hs : Nat) (d : Digest) (p : Bytes) (h : ¬ (0 < d.nx ∧ 16 ≤ d.nx + p.length)) : fill hs d p = (d, p) := by
  unfold fill
  rw [if_neg h]
theorem bulk_no (hs : Nat) (d : Digest) (p : Bytes) (h : ¬ 16 < p.length) : bulk hs d p = (d, p) := by
  unfold bulk
  rw [if_neg h]

theorem Full.lazy_nil {r : Nat} {I : Spec.Esch.Instance} {d : Digest} (h : Full r I d []) : Lazy r I d [] := by
  refine ⟨h.2.1, h.2.2, ?_⟩
  rw [h.2.2]; rfl
theorem Lazy.full_nil {r : Nat} {I : Spec.Esch.Instance} {d : Digest} {m : Bytes} (h : Lazy r I d m) (h0 : d.nx = 0) : m = [] ∧ Full r I d m := by
  have hm : m = [] := by
    apply Classical.byContradiction
    intro hm
    have := (lastBlock_length 16 m (by omega)).2 hm
    have := h.2.1
    omega
  subst hm
  exact ⟨rfl, rfl, h.1, h0⟩

theorem write_full {hs r : Nat} {I : Spec.Esch.Instance} (h : Var hs r I) {d : Digest} {m : Bytes} (hc : Core d) (hf : Full r I d m) (p : Bytes) :
    Core (write hs d p) ∧ (if p = [] then Full r I (write hs d p) m else Lazy r I (write hs d p) (m ++ p)) := by
  unfold write
  rw [fill_no hs d p (by have := hf.2.2; omega)]
  exact tail_full h hc hf p

theorem write_lazy {hs r : Nat} {I : Spec.Esch.Instance} (h : Var hs r I) {d : Digest} {m : Bytes} (hc : Core d) (hf : Lazy r I d m) (p : Bytes) :
    Core (write hs d p) ∧ (Lazy r I (write hs d p) (m ++ p) ∨ Full r I (write hs d p) (m ++ p)) := by
  by_cases h0 : d.nx = 0
  · obtain ⟨hm, hf'⟩ := hf.full_nil h0
    obtain ⟨h1, h2⟩ := write_full h hc hf' p
    refine ⟨h1, ?_⟩
    by_cases hp : p = []
    · subst hp hm; exact Or.inr h2
    · rw [if_neg hp] at h2; exact Or.inl h2
  · obtain ⟨h1, h2, h3⟩ := hf
    have hfl := init_flat m
    have hml := initBlocks_lastBlock 16 m (by omega)
    have hll := (lastBlock_length 16 m (by omega)).1
    unfold write
    by_cases hfill : 16 ≤ d.nx + p.length
    · generalize hfe : fill hs d p = fe
      obtain ⟨d1, q⟩ := fe
      rw [fill_eq hs d p (by omega) hfill] at hfe
      injection hfe with e1 e1'
      have hxl : (goCopy d.x d.nx p).length = 128 := by rw [goCopy_length _ _ _ (by rw [hc.2]; omega), hc.2]
      have ht := transform_eq h d.s hc.1 (goCopy d.x d.nx p) 1 (by omega)
      have hblk : (goCopy d.x d.nx p).take (16 * 1) = lastBlock 16 m ++ p.take (16 - d.nx) := by
        rw [goCopy_take_le (by omega) (by rw [hc.2]; omega) (by omega), h3]
      have hbl : (lastBlock 16 m ++ p.take (16 - d.nx)).length = 16 := by
        rw [List.length_append, List.length_take]; omega
      rw [hblk, fullBlocks_one 16 _ (by omega) hbl, h1] at ht
      have ha : m ++ p.take (16 - d.nx) = (initBlocks 16 m).flatten ++ (lastBlock 16 m ++ p.take (16 - d.nx)) := by
        rw [← List.append_assoc, hml]
      have hc1 : Core d1 := by subst e1; exact ⟨ht.2, hxl⟩
      have hf1 : Full r I d1 (m ++ p.take (16 - d.nx)) := by
        subst e1
        refine ⟨?_, ?_, rfl⟩
        · rw [ha, List.length_append, hbl]; omega
        · show toSt r _ = _
          rw [ht.1, ha, fullBlocks_append 16 _ _ (by omega) hfl.1, hfl.2, fullBlocks_one 16 _ (by omega) hbl, List.foldl_append]
      have := tail_full h hc1 hf1 q
      refine ⟨this.1, ?_⟩
      have hpq : m ++ p = m ++ p.take (16 - d.nx) ++ q := by
        rw [← e1', List.append_assoc, List.take_append_drop]
      rw [hpq]
      have t2 := this.2
      by_cases hq : q = []
      · rw [if_pos hq] at t2
        rw [hq, List.append_nil, ← hq]; exact Or.inr t2
      · rw [if_neg hq] at t2
        exact Or.inl t2
    · rw [fill_no hs d p (by omega)]
      simp only
      rw [bulk_no hs d p (by omega)]
      show Core (keep d p) ∧ (Lazy r I (keep d p) (m ++ p) ∨ Full r I (keep d p) (m ++ p))
      have hm : m ++ p = (initBlocks 16 m).flatten ++ (lastBlock 16 m ++ p) := by
        rw [← List.append_assoc, hml]
      have hne : lastBlock 16 m ++ p ≠ [] := by
        intro e; have := congrArg List.length e; rw [List.length_append, List.length_nil] at this; omega
      have hle : (lastBlock 16 m ++ p).length ≤ 16 := by rw [List.length_append]; omega
      have hI : initBlocks 16 (m ++ p) = initBlocks 16 m := by
        rw [hm, initBlocks_append (by omega) hfl.1 hne, hfl.2, initBlocks_le (by omega) hle, List.append_nil]
      have hL : lastBlock 16 (m ++ p) = lastBlock 16 m ++ p := by
        rw [hm, lastBlock_append (by omega) hfl.1 hne, lastBlock_le (by omega) hle]
      refine ⟨⟨hc.1, by show (goCopy _ _ _).length = _; rw [goCopy_length _ _ _ (by rw [hc.2]; omega), hc.2]⟩, Or.inl ⟨?_, ?_, ?_⟩⟩
      · rw [hI]; exact h1
      · show d.nx + p.length = _
        rw [hL, List.length_append, h2]
      · show (goCopy d.x d.nx p).take (d.nx + p.length) = _
        rw [hL, goCopy_take _ _ _ (by rw [hc.2]; omega), h3]

end Verif.Esch
