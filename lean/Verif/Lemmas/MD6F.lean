import Verif.Spec.MD6
import Verif.Model.MD6
import Verif.Bits
/-
The compression function of package md6, on pairs of 32-bit words, is that of MD6; it reads 89 words only.
-/
namespace Verif.MD6

/-- The 64-bit word of a pair. -/
def w (p : P) : U64 := p.1 ++ p.2

theorem w_lsb (p : P) (i : Nat) : (w p).getLsbD i = if i < 32 then p.2.getLsbD i else p.1.getLsbD (i - 32) := by
  unfold w
  rw [BitVec.getLsbD_append]
theorem w_xor (x y : P) : w (xor x y) = w x ^^^ w y := by
  apply BitVec.eq_of_getLsbD_eq; intro i hi
  rw [BitVec.getLsbD_xor, w_lsb, w_lsb, w_lsb]
  unfold xor
  dsimp only
  rw [BitVec.getLsbD_xor, BitVec.getLsbD_xor]
  split <;> rfl
theorem w_and (x y : P) : w (and x y) = w x &&& w y := by
  apply BitVec.eq_of_getLsbD_eq; intro i hi
  rw [BitVec.getLsbD_and, w_lsb, w_lsb, w_lsb]
  unfold and
  dsimp only
  rw [BitVec.getLsbD_and, BitVec.getLsbD_and]
  split <;> rfl
theorem w_shl (x : P) (n : Nat) (hn : n < 32) : w (shl x n) = w x <<< n := by
  apply BitVec.eq_of_getLsbD_eq; intro i hi
  rw [BitVec.getLsbD_shiftLeft, w_lsb, w_lsb]
  unfold shl
  rw [if_neg (show ¬ n ≥ 32 by omega)]
  dsimp only
  rw [BitVec.getLsbD_or, BitVec.getLsbD_shiftLeft, BitVec.getLsbD_shiftLeft, BitVec.getLsbD_ushiftRight]
  by_cases h1 : i < 32
  · rw [if_pos h1]
    by_cases h2 : i < n
    · simp [h2]
    · rw [if_pos (by omega)]; simp [h1, h2, hi]
  · rw [if_neg h1]
    have e : ¬ i < n := by omega
    by_cases h2 : i - 32 < n
    · rw [if_pos (show i - n < 32 by omega), show 32 - n + (i - 32) = i - n by omega]; simp [h2, e, hi]
    · rw [if_neg (show ¬ i - n < 32 by omega), BitVec.getLsbD_of_ge x.2 _ (by omega), show i - 32 - n = i - n - 32 by omega]
      have : i - 32 < 32 := by omega
      simp [h2, e, hi, this]
theorem w_shr (x : P) (n : Nat) (hn : n < 32) : w (shr x n) = w x >>> n := by
  apply BitVec.eq_of_getLsbD_eq; intro i hi
  rw [BitVec.getLsbD_ushiftRight, w_lsb, w_lsb]
  unfold shr
  rw [if_neg (show ¬ n ≥ 32 by omega)]
  dsimp only
  rw [BitVec.getLsbD_or, BitVec.getLsbD_shiftLeft, BitVec.getLsbD_ushiftRight, BitVec.getLsbD_ushiftRight]
  by_cases h1 : i < 32
  · rw [if_pos h1]
    by_cases h2 : n + i < 32
    · rw [if_pos h2]
      have : i < 32 - n := by omega
      simp [this]
    · rw [if_neg h2, BitVec.getLsbD_of_ge x.2 _ (by omega), show i - (32 - n) = n + i - 32 by omega]
      have : ¬ i < 32 - n := by omega
      simp [this, h1]
  · rw [if_neg h1, if_neg (by omega), show n + (i - 32) = n + i - 32 by omega]
theorem w_shr63 (x : P) : w (shr x 63) = w x >>> 63 := by
  apply BitVec.eq_of_getLsbD_eq; intro i hi
  rw [BitVec.getLsbD_ushiftRight, w_lsb, w_lsb]
  unfold shr
  rw [if_pos (show 63 ≥ 32 by omega), if_neg (show ¬ 63 + i < 32 by omega)]
  dsimp only
  by_cases h1 : i < 32
  · rw [if_pos h1, BitVec.getLsbD_ushiftRight]
    congr 1; omega
  · rw [if_neg h1, BitVec.getLsbD_of_ge x.1 _ (by omega)]; simp

theorem w_S (S : P) (j : Nat) (h : w S = Spec.MD6.S j) : w (xor (xor (shl S 1) (shr S (64 - 1))) (and S Sm)) = Spec.MD6.S (j + 1) := by
  rw [w_xor, w_xor, w_and, w_shl _ _ (by omega), w_shr63, h]
  show _ = (Spec.MD6.S j).rotateLeft 1 ^^^ (Spec.MD6.S j &&& 0x7311C2812425CFA0#64)
  have e : w Sm = 0x7311C2812425CFA0#64 := by decide
  rw [e]
  congr 1
  rw [BitVec.rotateLeft_def]
  apply BitVec.eq_of_getLsbD_eq; intro i hi
  rw [BitVec.getLsbD_xor, BitVec.getLsbD_or]
  simp only [Nat.one_mod, Nat.reduceSub, show 1 % 64 = 1 from rfl]
  rw [BitVec.getLsbD_shiftLeft, BitVec.getLsbD_ushiftRight]
  by_cases h0 : i = 0
  · subst h0; simp
  · rw [BitVec.getLsbD_of_ge _ (63 + i) (by omega)]; simp

/-- The words of the specification after `k` steps. -/
def seqAt (N : List U64) (k : Nat) : List U64 := (List.range k).foldl (fun A i => A ++ [Spec.MD6.next A i]) N
theorem seqAt_succ (N : List U64) (k : Nat) : seqAt N (k + 1) = seqAt N k ++ [Spec.MD6.next (seqAt N k) k] := by
  unfold seqAt; rw [List.range_succ, List.foldl_append]; rfl
theorem seqAt_length (N : List U64) (k : Nat) : (seqAt N k).length = N.length + k := by
  induction k with
  | zero => rfl
  | succ k ih => rw [seqAt_succ, List.length_append, ih]; rfl

theorem getD_map_w (A : List P) (B : List U64) (n i : Nat) (h : (A.take n).map w = B) (hi : i < n) (hA : n ≤ A.length) : w (A.getD i (0, 0)) = B.getD i 0 := by
  rw [← h, List.getD_eq_getElem?_getD, List.getD_eq_getElem?_getD, List.getElem?_map, List.getElem?_take, if_pos hi, List.getElem?_eq_getElem (by omega)]
  rfl

/-- The word that a step computes. -/
def mix (S a5 a0 a1 a2 a3 a4 : P) (r l : Nat) : P :=
  let x := xor (xor (xor (xor S a5) a0) (and a1 a2)) (and a3 a4)
  let x := xor x (shr x r)
  xor x (shl x l)
theorem fStep_eq (S : P) (A : List P) (i s : Nat) : fStep S A i s = A.set (i + s) (mix S (A.getD (i + s - 89) (0, 0)) (A.getD (i + s - 17) (0, 0))
    (A.getD (i + s - 18) (0, 0)) (A.getD (i + s - 21) (0, 0)) (A.getD (i + s - 31) (0, 0)) (A.getD (i + s - 67) (0, 0)) (rs.getD s 0) (ls.getD s 0)) := rfl
theorem w_mix (S a5 a0 a1 a2 a3 a4 : P) (r l : Nat) (hr : r < 32) (hl : l < 32) : w (mix S a5 a0 a1 a2 a3 a4 r l) =
    (let x := w S ^^^ w a5 ^^^ w a0 ^^^ (w a1 &&& w a2) ^^^ (w a3 &&& w a4)
     let x := x ^^^ (x >>> r)
     x ^^^ (x <<< l)) := by
  unfold mix
  dsimp only
  rw [w_xor, w_shl _ _ hl, w_xor, w_shr _ _ hr, w_xor, w_xor, w_xor, w_xor, w_and, w_and]
theorem rs_lt : ∀ s, s < 16 → rs.getD s 0 < 32 := by decide
theorem ls_lt : ∀ s, s < 16 → ls.getD s 0 < 32 := by decide
theorem next_eq (A : List U64) (i : Nat) : Spec.MD6.next A i =
    (let x := Spec.MD6.S (i / 16) ^^^ A.getD (A.length - 89) 0 ^^^ A.getD (A.length - 17) 0 ^^^ (A.getD (A.length - 18) 0 &&& A.getD (A.length - 21) 0) ^^^
       (A.getD (A.length - 31) 0 &&& A.getD (A.length - 67) 0)
     let x := x ^^^ (x >>> rs.getD (i % 16) 0)
     x ^^^ (x <<< ls.getD (i % 16) 0)) := rfl

theorem step_eq (N : List U64) (hN : N.length = 89) (S : P) (A : List P) (j s : Nat) (hs : s < 16) (hS : w S = Spec.MD6.S j)
    (hA : 89 + 16 * j + s < A.length) (h : (A.take (89 + 16 * j + s)).map w = seqAt N (16 * j + s)) :
    (fStep S A (89 + 16 * j) s).length = A.length ∧
    ((fStep S A (89 + 16 * j) s).take (89 + 16 * j + (s + 1))).map w = seqAt N (16 * j + (s + 1)) := by
  have g : ∀ k, 0 < k → k ≤ 89 → w (A.getD (89 + 16 * j + s - k) (0, 0)) = (seqAt N (16 * j + s)).getD ((seqAt N (16 * j + s)).length - k) 0 := by
    intro k h1 h2
    rw [getD_map_w A _ _ _ h (by omega) (by omega), seqAt_length, hN]
    congr 1; omega
  rw [fStep_eq]
  refine ⟨List.length_set .., ?_⟩
  have e1 : (16 * j + s) / 16 = j := by omega
  have e2 : (16 * j + s) % 16 = s := by omega
  have e3 := next_eq (seqAt N (16 * j + s)) (16 * j + s)
  rw [e1, e2, ← hS, ← g 89 (by omega) (by omega), ← g 17 (by omega) (by omega), ← g 18 (by omega) (by omega), ← g 21 (by omega) (by omega),
    ← g 31 (by omega) (by omega), ← g 67 (by omega) (by omega), ← w_mix _ _ _ _ _ _ _ _ _ (rs_lt s hs) (ls_lt s hs)] at e3
  generalize mix S _ _ _ _ _ _ _ _ = x at e3 ⊢
  rw [show 89 + 16 * j + (s + 1) = 89 + 16 * j + s + 1 by omega, List.take_succ_eq_append_getElem (by rw [List.length_set]; omega), List.getElem_set_self,
    List.take_set_of_le (by omega), List.map_append, h, show 16 * j + (s + 1) = 16 * j + s + 1 by omega, seqAt_succ, e3]
  rfl

/-- 89 words, cut or filled with zeros. -/
def fit (N : List U64) : List U64 := (N ++ List.replicate 89 0#64).take 89

theorem f_eq (r : Nat) (N : List P) (hN : N.length ≤ 89 + r * 16) : (f r N).map w = Spec.MD6.f r (fit (N.map w)) ∧ (f r N).length = 16 := by
  have hfl : (fit (N.map w)).length = 89 := by unfold fit; rw [List.length_take, List.length_append, List.length_replicate]; omega
  have hA0 : (goCopy (List.replicate (89 + r * 16) ((0, 0) : P)) 0 N).length = 89 + r * 16 := by
    rw [goCopy_length _ _ _ (Nat.zero_le _), List.length_replicate]
  have hA1 : ((goCopy (List.replicate (89 + r * 16) ((0, 0) : P)) 0 N).take (89 + 16 * 0)).map w = seqAt (fit (N.map w)) 0 := by
    show _ = fit (N.map w)
    unfold fit goCopy
    rw [List.take_zero, List.nil_append, List.length_replicate, Nat.sub_zero, List.take_of_length_le hN, Nat.zero_add, List.map_take, List.map_append,
      List.drop_replicate, List.map_replicate, show w (0, 0) = 0#64 by decide, List.take_append, List.take_append, List.length_map, List.take_replicate, List.take_replicate]
    congr 2
    omega
  have hS0 : w S0 = Spec.MD6.S 0 := by decide
  unfold f
  dsimp only
  have key := forLoop_inv (a := 0) (b := r) (s := (S0, goCopy (List.replicate (89 + r * 16) ((0, 0) : P)) 0 N))
    (body := fun (st : P × List P) j =>
      (xor (xor (shl st.1 1) (shr st.1 (64 - 1))) (and st.1 Sm), forLoop 0 16 (fun A s => fStep st.1 A (89 + 16 * j) s) st.2))
    (fun j st => w st.1 = Spec.MD6.S j ∧ st.2.length = 89 + r * 16 ∧ (st.2.take (89 + 16 * j)).map w = seqAt (fit (N.map w)) (16 * j)) (Nat.zero_le _)
    ⟨hS0, hA0, hA1⟩ ?_
  · obtain ⟨_, h2, h3⟩ := key
    generalize (forLoop 0 r _ _) = st at h2 h3
    constructor
    · rw [List.map_drop]
      unfold Spec.MD6.f
      rw [List.take_of_length_le (by omega)] at h3
      rw [h3, h2]
      show List.drop _ (seqAt _ _) = List.drop _ (seqAt _ _)
      congr 1; omega
    · rw [List.length_drop]; omega
  · rintro j ⟨S, A⟩ _ hj ⟨h1, h2, h3⟩
    dsimp only at h1 h2 h3 ⊢
    have inner := forLoop_inv (a := 0) (b := 16) (s := A) (body := fun A s => fStep S A (89 + 16 * j) s)
      (fun s A => A.length = 89 + r * 16 ∧ (A.take (89 + 16 * j + s)).map w = seqAt (fit (N.map w)) (16 * j + s)) (by omega) ⟨h2, h3⟩ ?_
    · refine ⟨w_S S j h1, inner.1, ?_⟩
      have := inner.2
      rw [show 89 + 16 * j + 16 = 89 + 16 * (j + 1) by omega, show 16 * j + 16 = 16 * (j + 1) by omega] at this
      exact this
    · rintro s A' _ hs ⟨g1, g2⟩
      have := step_eq (fit (N.map w)) hfl S A' j s hs h1 (by omega) g2
      exact ⟨by rw [this.1]; exact g1, this.2⟩

end Verif.MD6
