import Verif.Model.BLAKE3
import Verif.Spec.BLAKE3
/-
The compression function of package blake3 is that of the paper.
-/
namespace Verif.BLAKE3
open Verif.Spec

theorem rotr32_eq (x : U32) (n : Nat) (h0 : 0 < n) (h : n < 32) : rotr32 x n = x.rotateRight n := by
  unfold rotr32
  rw [BitVec.rotateLeft_def, BitVec.rotateRight_def, Nat.mod_eq_of_lt h,
    Nat.mod_eq_of_lt (show 32 - n < 32 by omega), show 32 - (32 - n) = n by omega, BitVec.or_comm]

theorem list16 (s : List U32) (h : s.length = 16) : ∃ a0 a1 a2 a3 a4 a5 a6 a7 a8 a9 a10 a11 a12 a13 a14 a15,
    s = [a0, a1, a2, a3, a4, a5, a6, a7, a8, a9, a10, a11, a12, a13, a14, a15] := by
  match s, h with
  | [a0, a1, a2, a3, a4, a5, a6, a7, a8, a9, a10, a11, a12, a13, a14, a15], _ => exact ⟨_, _, _, _, _, _, _, _, _, _, _, _, _, _, _, _, rfl⟩

theorem list8 (s : List U32) (h : s.length = 8) : ∃ a0 a1 a2 a3 a4 a5 a6 a7, s = [a0, a1, a2, a3, a4, a5, a6, a7] := by
  match s, h with
  | [a0, a1, a2, a3, a4, a5, a6, a7], _ => exact ⟨_, _, _, _, _, _, _, _, rfl⟩

theorem mix_length (s : List U32) (a b c d x y) : (BLAKE3.mix s a b c d x y).length = s.length := by simp [BLAKE3.mix]

theorem g_eq (s : List U32) (h : s.length = 16) (a b c d : Nat) (x y : U32)
    (hq : (a, b, c, d) ∈ [(0, 4, 8, 12), (1, 5, 9, 13), (2, 6, 10, 14), (3, 7, 11, 15), (0, 5, 10, 15), (1, 6, 11, 12), (2, 7, 8, 13), (3, 4, 9, 14)]) :
    g s a b c d x y = BLAKE3.mix s a b c d x y := by
  obtain ⟨a0, a1, a2, a3, a4, a5, a6, a7, a8, a9, a10, a11, a12, a13, a14, a15, rfl⟩ := list16 s h
  unfold g BLAKE3.mix BLAKE3.G
  simp only [rotr32_eq _ 16 (by decide) (by decide), rotr32_eq _ 12 (by decide) (by decide), rotr32_eq _ 8 (by decide) (by decide), rotr32_eq _ 7 (by decide) (by decide)]
  simp only [List.mem_cons, List.not_mem_nil, or_false, Prod.mk.injEq] at hq
  rcases hq with h | h | h | h | h | h | h | h <;> obtain ⟨rfl, rfl, rfl, rfl⟩ := h <;> rfl

theorem round_eq (s msg : List U32) (h : s.length = 16) (r : Nat) :
    round_fn s msg r = BLAKE3.round ((List.range 16).map fun i => msg.getD ((MSG_SCHEDULE.getD r []).getD i 0) 0) s := by
  unfold round_fn BLAKE3.round
  simp only [g_eq _ h _ _ _ _ _ _ (show (0, 4, 8, 12) ∈ _ by decide),
    g_eq _ ((mix_length _ _ _ _ _ _ _).trans h) _ _ _ _ _ _ (show (1, 5, 9, 13) ∈ _ by decide)]
  rw [g_eq _ (by simpa only [mix_length] using h) 2 6 10 14 _ _ (by decide)]
  rw [g_eq _ (by simpa only [mix_length] using h) 3 7 11 15 _ _ (by decide)]
  rw [g_eq _ (by simpa only [mix_length] using h) 0 5 10 15 _ _ (by decide)]
  rw [g_eq _ (by simpa only [mix_length] using h) 1 6 11 12 _ _ (by decide)]
  rw [g_eq _ (by simpa only [mix_length] using h) 2 7 8 13 _ _ (by decide)]
  rw [g_eq _ (by simpa only [mix_length] using h) 3 4 9 14 _ _ (by decide)]
  rfl

theorem round_length (m s : List U32) : (BLAKE3.round m s).length = s.length := by simp only [BLAKE3.round, mix_length]

/-- The words of round `r` as the code selects them. -/
def sched (msg : List U32) (r : Nat) : List U32 := (List.range 16).map fun i => msg.getD ((MSG_SCHEDULE.getD r []).getD i 0) 0

theorem sched_succ (msg : List U32) (r : Nat) (h : r < 6) : BLAKE3.permute (sched msg r) = sched msg (r + 1) := by
  match r, h with
  | 0, _ => rfl
  | 1, _ => rfl
  | 2, _ => rfl
  | 3, _ => rfl
  | 4, _ => rfl
  | 5, _ => rfl

theorem sched_zero (msg : List U32) (h : msg.length = 16) : sched msg 0 = msg := by
  obtain ⟨a0, a1, a2, a3, a4, a5, a6, a7, a8, a9, a10, a11, a12, a13, a14, a15, rfl⟩ := list16 msg h
  rfl

theorem rounds_succ (m v : List U32) (n : Nat) : BLAKE3.rounds m v (n + 1) =
    (BLAKE3.permute (BLAKE3.rounds m v n).1, BLAKE3.round (BLAKE3.rounds m v n).1 (BLAKE3.rounds m v n).2) := rfl

theorem rounds_eq (msg s : List U32) (h : s.length = 16) (hm : msg.length = 16) :
    round_fn (round_fn (round_fn (round_fn (round_fn (round_fn (round_fn s msg 0) msg 1) msg 2) msg 3) msg 4) msg 5) msg 6 =
      (BLAKE3.rounds msg s 7).2 := by
  have e0 : BLAKE3.rounds msg s 0 = (sched msg 0, s) := by rw [sched_zero msg hm]; rfl
  have st : ∀ r v, r < 6 → BLAKE3.rounds msg s r = (sched msg r, v) →
      BLAKE3.rounds msg s (r + 1) = (sched msg (r + 1), BLAKE3.round (sched msg r) v) := by
    intro r v hr e
    rw [rounds_succ, e, sched_succ msg r hr]
  have e6 := st 5 _ (by decide) (st 4 _ (by decide) (st 3 _ (by decide) (st 2 _ (by decide) (st 1 _ (by decide) (st 0 _ (by decide) e0)))))
  rw [rounds_succ, e6]
  have hr : ∀ v r, v.length = 16 → round_fn v msg r = BLAKE3.round (sched msg r) v := fun v r hv => round_eq v msg hv r
  rw [hr s 0 h]
  rw [hr _ 1 (by simpa only [round_length] using h)]
  rw [hr _ 2 (by simpa only [round_length] using h)]
  rw [hr _ 3 (by simpa only [round_length] using h)]
  rw [hr _ 4 (by simpa only [round_length] using h)]
  rw [hr _ 5 (by simpa only [round_length] using h)]
  rw [hr _ 6 (by simpa only [round_length] using h)]

theorem rounds_length (msg s : List U32) (n : Nat) : (BLAKE3.rounds msg s n).2.length = s.length := by
  induction n with
  | zero => rfl
  | succ n ih => rw [rounds_succ]; dsimp only; rw [round_length, ih]

/-- The state after the seven rounds. -/
def specState (h : List U32) (b : Bytes) (len : Nat) (t : U64) (f : Byte) : List U32 :=
  (BLAKE3.rounds (BLAKE3.words b) (h ++ BLAKE3.IV.take 4 ++ [t.setWidth 32, (t >>> 32).setWidth 32, BitVec.ofNat 32 len, f.setWidth 32]) 7).2

theorem specState_length (h : List U32) (b : Bytes) (len : Nat) (t : U64) (f : Byte) (hh : h.length = 8) :
    (specState h b len t f).length = 16 := by
  unfold specState
  rw [rounds_length]
  simp [hh, BLAKE3.IV]

theorem compress_pre_eq (cv : List U32) (b : Bytes) (len : Byte) (t : U64) (f : Byte) (hh : cv.length = 8) :
    compress_pre cv b len t f = specState cv b len.toNat t f := by
  obtain ⟨a0, a1, a2, a3, a4, a5, a6, a7, rfl⟩ := list8 cv hh
  unfold compress_pre specState
  have hl : BitVec.setWidth 32 len = BitVec.ofNat 32 len.toNat := by
    apply BitVec.eq_of_toNat_eq; simp
  rw [rounds_eq _ _ rfl rfl, hl]
  rfl

theorem compress_def (h : List U32) (b : Bytes) (len : Nat) (t : U64) (f : Byte) : BLAKE3.compress h b len t f =
    List.zipWith (· ^^^ ·) ((specState h b len t f).take 8) ((specState h b len t f).drop 8) ++
      List.zipWith (· ^^^ ·) ((specState h b len t f).drop 8) h := rfl

theorem compress_length (h : List U32) (b : Bytes) (len : Nat) (t : U64) (f : Byte) (hh : h.length = 8) :
    (BLAKE3.compress h b len t f).length = 16 := by
  rw [compress_def]
  simp [specState_length _ _ _ _ _ hh, hh]

theorem compress_in_place_eq (cv : List U32) (b : Bytes) (len : Byte) (t : U64) (f : Byte) (hh : cv.length = 8) :
    compress_in_place cv b len t f = (BLAKE3.compress cv b len.toNat t f).take 8 := by
  have hs := specState_length cv b len.toNat t f hh
  unfold compress_in_place
  rw [compress_pre_eq _ _ _ _ _ hh, compress_def]
  obtain ⟨a0, a1, a2, a3, a4, a5, a6, a7, rfl⟩ := list8 cv hh
  generalize specState _ b len.toNat t f = s at hs
  obtain ⟨b0, b1, b2, b3, b4, b5, b6, b7, b8, b9, b10, b11, b12, b13, b14, b15, rfl⟩ := list16 s hs
  rfl

theorem compress_xof_eq (cv : List U32) (b : Bytes) (len : Byte) (t : U64) (f : Byte) (hh : cv.length = 8) :
    compress_xof cv b len t f = (BLAKE3.compress cv b len.toNat t f).flatMap le32 := by
  have hs := specState_length cv b len.toNat t f hh
  unfold compress_xof
  rw [compress_pre_eq _ _ _ _ _ hh, compress_def]
  obtain ⟨a0, a1, a2, a3, a4, a5, a6, a7, rfl⟩ := list8 cv hh
  generalize specState _ b len.toNat t f = s at hs
  obtain ⟨b0, b1, b2, b3, b4, b5, b6, b7, b8, b9, b10, b11, b12, b13, b14, b15, rfl⟩ := list16 s hs
  rfl

/-- Padding a block with zeros does not change its words. -/
theorem at8_zeros (b : Bytes) (k i : Nat) : at8 (b ++ zeros k) i = at8 b i := by
  unfold at8 zeros
  by_cases h : i < b.length
  · simp [List.getD_eq_getElem?_getD, List.getElem?_append_left h]
  · rw [List.getD_eq_getElem?_getD, List.getD_eq_getElem?_getD, List.getElem?_append_right (by omega), List.getElem?_eq_none (l := b) (by omega)]
    by_cases h2 : i - b.length < k
    · rw [List.getElem?_replicate_of_lt h2]; rfl
    · rw [List.getElem?_eq_none (by simp; omega)]

theorem words_pad (b : Bytes) (k : Nat) : BLAKE3.words (b ++ zeros k) = BLAKE3.words b := by
  unfold BLAKE3.words
  refine List.map_congr_left fun i _ => ?_
  simp only [getLE32, at8_zeros]

theorem compress_pad (h : List U32) (b : Bytes) (k len : Nat) (t : U64) (f : Byte) :
    BLAKE3.compress h (b ++ zeros k) len t f = BLAKE3.compress h b len t f := by
  unfold BLAKE3.compress; rw [words_pad]

theorem flatMap_le32_length (w : List U32) : (w.flatMap le32).length = 4 * w.length := by
  induction w with
  | nil => rfl
  | cons a w ih => rw [List.flatMap_cons, List.length_append, ih, le32_length, List.length_cons]; omega

end Verif.BLAKE3
