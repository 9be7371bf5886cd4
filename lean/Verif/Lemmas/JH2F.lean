import Verif.Lemmas.JH2
namespace Verif.JH
theorem oddL_congr {e o e' o' : Nat → Bool} (he : ∀ k, k < 4 → e k = e' k) (ho : ∀ k, k < 4 → o k = o' k) (k : Nat) : oddL e o k = oddL e' o' k := by
  have := he 0 (by omega); have := he 1 (by omega); have := he 2 (by omega); have := he 3 (by omega)
  have := ho 0 (by omega); have := ho 1 (by omega); have := ho 2 (by omega); have := ho 3 (by omega)
  match k with
  | 0 => simp only [oddL, *]
  | 1 => simp only [oddL, *]
  | 2 => simp only [oddL, *]
  | n + 3 => simp only [oddL, *]
theorem evenL_congr {e o e' o' : Nat → Bool} (he : ∀ k, k < 4 → e k = e' k) (ho : ∀ k, k < 4 → o k = o' k) (k : Nat) : evenL e o k = evenL e' o' k := by
  have := he 0 (by omega); have := he 1 (by omega); have := he 2 (by omega); have := he 3 (by omega)
  match k with
  | 0 => simp only [evenL, oddL_congr he ho, *]
  | 1 => simp only [evenL, oddL_congr he ho, *]
  | 2 => simp only [evenL, oddL_congr he ho, *]
  | n + 3 => simp only [evenL, oddL_congr he ho, *]
end Verif.JH
namespace Verif.JH2
open Verif.JH
open Spec.JH (bit)

/-- A swap layer moves the odd words by `n`. -/
def Swaps (n : Nat) (W : List U64 → List U64) : Prop := ∀ h k p, k < 8 → p < 128 → acc (W h) k p = if k % 2 = 0 then acc h k p else acc h k (p ^^^ n)

theorem SL_acc (h : List U64) (r k p : Nat) (hk : k < 4) (hp : p < 128) :
    acc (doL (doS h r)) (2 * k) p = evenL (comp (sX (cb r) (acc h) 0 p)) (comp (sX (cb r) (acc h) 1 p)) k ∧
    acc (doL (doS h r)) (2 * k + 1) p = oddL (comp (sX (cb r) (acc h) 0 p)) (comp (sX (cb r) (acc h) 1 p)) k := by
  have hq : p / 64 < 2 := by omega
  have hi : 63 - p % 64 < 64 := by omega
  have e : ∀ k', k' < 4 → ((doS h r).getD (4 * k' + p / 64) 0).getLsbD (63 - p % 64) = comp (sX (cb r) (acc h) 0 p) k' := by
    intro k' hk'
    have := doS_acc h r (p / 64) (63 - p % 64) k' hq hi hk' 0 (by omega)
    rw [show 4 * k' + 2 * 0 + p / 64 = 4 * k' + p / 64 by omega] at this
    rw [this]; unfold sX cb acc
    simp only [Nat.mul_zero, Nat.zero_add, Nat.reduceMul, Nat.reduceAdd, Nat.add_zero]
  have o : ∀ k', k' < 4 → ((doS h r).getD (4 * k' + 2 + p / 64) 0).getLsbD (63 - p % 64) = comp (sX (cb r) (acc h) 1 p) k' := by
    intro k' hk'
    have := doS_acc h r (p / 64) (63 - p % 64) k' hq hi hk' 1 (by omega)
    rw [show 4 * k' + 2 * 1 + p / 64 = 4 * k' + 2 + p / 64 by omega] at this
    rw [this]; unfold sX cb acc
    simp only [Nat.mul_one, Nat.reduceMul, Nat.reduceAdd, ← Nat.add_assoc]
  obtain ⟨l1, l2⟩ := doL_acc (doS h r) (p / 64) (63 - p % 64) k hq hk
  constructor
  · unfold acc
    rw [show 2 * (2 * k) + p / 64 = 4 * k + p / 64 by omega, l1]
    exact evenL_congr e o k
  · unfold acc
    rw [show 2 * (2 * k + 1) + p / 64 = 4 * k + 2 + p / 64 by omega, l2]
    exact oddL_congr e o k

theorem round_acc (W : List U64 → List U64) (r : Nat) (hW : Swaps (2 ^ (r % 7)) W) (h : List U64) : EqX (acc (W (doL (doS h r)))) (BS (cb r) (2 ^ (r % 7)) (acc h)) := by
  intro k p hk hp
  rw [hW _ k p hk hp]
  unfold BS
  by_cases h2 : k % 2 = 0
  · rw [if_pos h2, if_pos h2]
    have := (SL_acc h r (k / 2) p (by omega) hp).1
    rw [show 2 * (k / 2) = k by omega] at this
    exact this
  · rw [if_neg h2, if_neg h2]
    have := (SL_acc h r (k / 2) _ (by omega) (xor_lt p r hp)).2
    rw [show 2 * (k / 2) + 1 = k by omega] at this
    exact this

theorem swaps_gen (e : Nat) (he : e < 6) (c : U64) (hsw : ∀ w : U64, ∀ i, i < 64 → (sw c (2 ^ e) w).getLsbD i = w.getLsbD (i ^^^ 2 ^ e)) :
    Swaps (2 ^ e) (doWgen c (2 ^ e)) := by
  have fact : ∀ (e : Fin 6) (p : Fin 128), (p.val ^^^ 2 ^ e.val) / 64 = p.val / 64 ∧ (63 - p.val % 64) ^^^ 2 ^ e.val = 63 - (p.val ^^^ 2 ^ e.val) % 64 := by decide +kernel
  intro h k p hk hp
  obtain ⟨f1, f2⟩ := fact ⟨e, he⟩ ⟨p, hp⟩
  dsimp only at f1 f2
  unfold acc
  rw [f1, ← f2]
  have hq : p / 64 = 0 ∨ p / 64 = 1 := by omega
  have hi : 63 - p % 64 < 64 := by omega
  generalize 63 - p % 64 = i at hi
  generalize p / 64 = q at hq
  rcases hq with rfl | rfl <;> interval_cases k <;> simp [doWgen, hsw _ _ hi, -BitVec.getLsbD_eq_getElem]

theorem sw0 (w : U64) (i : Nat) (hi : i < 64) : (sw 0x5555555555555555 (2 ^ 0) w).getLsbD i = w.getLsbD (i ^^^ 2 ^ 0) := by
  unfold sw; interval_cases i <;> simp [-BitVec.getLsbD_eq_getElem]
theorem sw1 (w : U64) (i : Nat) (hi : i < 64) : (sw 0x3333333333333333 (2 ^ 1) w).getLsbD i = w.getLsbD (i ^^^ 2 ^ 1) := by
  unfold sw; interval_cases i <;> simp [-BitVec.getLsbD_eq_getElem]
theorem sw2 (w : U64) (i : Nat) (hi : i < 64) : (sw 0x0F0F0F0F0F0F0F0F (2 ^ 2) w).getLsbD i = w.getLsbD (i ^^^ 2 ^ 2) := by
  unfold sw; interval_cases i <;> simp [-BitVec.getLsbD_eq_getElem]
theorem sw3 (w : U64) (i : Nat) (hi : i < 64) : (sw 0x00FF00FF00FF00FF (2 ^ 3) w).getLsbD i = w.getLsbD (i ^^^ 2 ^ 3) := by
  unfold sw; interval_cases i <;> simp [-BitVec.getLsbD_eq_getElem]
theorem sw4 (w : U64) (i : Nat) (hi : i < 64) : (sw 0x0000FFFF0000FFFF (2 ^ 4) w).getLsbD i = w.getLsbD (i ^^^ 2 ^ 4) := by
  unfold sw; interval_cases i <;> simp [-BitVec.getLsbD_eq_getElem]
theorem sw5 (w : U64) (i : Nat) (hi : i < 64) : (sw 0x00000000FFFFFFFF (2 ^ 5) w).getLsbD i = w.getLsbD (i ^^^ 2 ^ 5) := by
  unfold sw; interval_cases i <;> simp [-BitVec.getLsbD_eq_getElem]

theorem swaps6 : Swaps (2 ^ 6) doW6 := by
  have fact : ∀ p : Fin 128, (p.val ^^^ 2 ^ 6) / 64 = 1 - p.val / 64 ∧ (p.val ^^^ 2 ^ 6) % 64 = p.val % 64 := by decide +kernel
  intro h k p hk hp
  obtain ⟨f1, f2⟩ := fact ⟨p, hp⟩
  dsimp only at f1 f2
  unfold acc
  rw [f1, f2]
  have hq : p / 64 = 0 ∨ p / 64 = 1 := by omega
  generalize 63 - p % 64 = i
  generalize p / 64 = q at hq
  rcases hq with rfl | rfl <;> interval_cases k <;> simp [doW6]

theorem rounds7_acc (h : List U64) (j : Nat) (X : Nat → Nat → Bool) (hX : EqX (acc h) (runX cb X (7 * j))) : EqX (acc (rounds7 h (7 * j))) (runX cb X (7 * (j + 1))) := by
  have step : ∀ (W : List U64 → List U64) (r : Nat) (h : List U64), Swaps (2 ^ (r % 7)) W → EqX (acc h) (runX cb X r) → EqX (acc (W (doL (doS h r)))) (runX cb X (r + 1)) := by
    intro W r h hW hr k p hk hp
    rw [round_acc W r hW h k p hk hp]
    exact BS_congr (cb r) r hr k p hk hp
  have m : ∀ t, t < 7 → (7 * j + t) % 7 = t := by intro t ht; omega
  unfold rounds7
  dsimp only
  rw [show 7 * (j + 1) = 7 * j + 6 + 1 by omega]
  refine step doW6 _ _ (by rw [m 6 (by omega)]; exact swaps6) ?_
  refine step (doWgen _ _) (7 * j + 5) _ (by rw [m 5 (by omega)]; exact swaps_gen 5 (by omega) _ sw5) ?_
  refine step (doWgen _ _) (7 * j + 4) _ (by rw [m 4 (by omega)]; exact swaps_gen 4 (by omega) _ sw4) ?_
  refine step (doWgen _ _) (7 * j + 3) _ (by rw [m 3 (by omega)]; exact swaps_gen 3 (by omega) _ sw3) ?_
  refine step (doWgen _ _) (7 * j + 2) _ (by rw [m 2 (by omega)]; exact swaps_gen 2 (by omega) _ sw2) ?_
  refine step (doWgen _ _) (7 * j + 1) _ (by rw [m 1 (by omega)]; exact swaps_gen 1 (by omega) _ sw1) ?_
  exact step (doWgen _ _) (7 * j + 0) _ (by rw [m 0 (by omega)]; exact swaps_gen 0 (by omega) _ sw0) hX

theorem rounds7_length (h : List U64) (r : Nat) : (rounds7 h r).length = 16 := by unfold rounds7 doW6; rfl

/-- All rounds of the code are E8. -/
theorem E8_eq (h : List U64) (hl : h.length = 16) :
    tb ((List.range 6).foldl (fun h i => rounds7 h (7 * i)) h) = Spec.JH.E8 (tb h) ∧ ((List.range 6).foldl (fun h i => rounds7 h (7 * i)) h).length = 16 := by
  have key : ∀ n, EqX (acc ((List.range n).foldl (fun h i => rounds7 h (7 * i)) h)) (runX cb (acc h) (7 * n)) ∧
      ((List.range n).foldl (fun h i => rounds7 h (7 * i)) h).length = 16 := by
    intro n
    induction n with
    | zero => exact ⟨fun _ _ _ _ => rfl, hl⟩
    | succ n ih =>
      rw [List.range_succ, List.foldl_append]
      exact ⟨rounds7_acc _ n _ ih.1, rounds7_length _ _⟩
  obtain ⟨k1, k2⟩ := key 6
  refine ⟨?_, k2⟩
  apply ext_bits
  · rw [tb_length, k2, E8_length]
  · intro i hi
    rw [tb_length, k2] at hi
    have hk : i / 128 < 8 := by omega
    have hp : i % 128 < 128 := by omega
    have e1 := E8_bits cb const_ok (tb h) (i / 128) (i % 128) hk hp
    have e2 := bit_tb _ k2 (i / 128) (i % 128) hk hp
    rw [show 128 * (i / 128) + i % 128 = i by omega] at e1 e2
    rw [e1, e2, k1 _ _ hk hp]
    exact runX_congr cb (fun k p hk hp => (bit_tb h hl k p hk hp).symm) 42 _ _ hk hp

theorem mixIn_length (k : Nat) (data : Bytes) (h : List U64) : (mixIn k data h).length = 16 := by unfold mixIn; simp

theorem mixIn_getD (k : Nat) (data : Bytes) (h : List U64) (i : Nat) (hi : i < 16) :
    (mixIn k data h).getD i 0 = if k ≤ i ∧ i < k + 8 then h.getD i 0 ^^^ getBE64 data (8 * (i - k)) else h.getD i 0 := by
  unfold mixIn; rw [getD_range _ _ _ hi]

theorem mixIn_eq (k : Nat) (hk : k = 0 ∨ k = 8) (data : Bytes) (hd : data.length = 64) (h : List U64) (hl : h.length = 16) :
    tb (mixIn k data h) = Spec.JH.xor (tb h) (if k = 0 then data ++ zeros 64 else zeros 64 ++ data) := by
  have hml := mixIn_length k data h
  have hdl : (if k = 0 then data ++ zeros 64 else zeros 64 ++ data).length = 128 := by split <;> simp [hd]
  unfold Spec.JH.xor
  apply ext_at8
  · rw [tb_length, List.length_zipWith, tb_length, hml, hl, hdl]; rfl
  · intro n hn
    rw [tb_length, hml] at hn
    rw [at8_zipWith _ _ _ _ (by rw [tb_length, hl]; exact hn) (by omega)]
    obtain ⟨j, i, hj, hi, rfl⟩ : ∃ j i, j < 16 ∧ i < 8 ∧ n = 8 * j + i := ⟨n / 8, n % 8, by omega, by omega, by omega⟩
    rw [tb_at _ j i (by omega) hi, tb_at h j i (by omega) hi, mixIn_getD _ _ _ _ hj]
    have hz : ∀ q, at8 (zeros 64) q = 0 := by
      intro q; unfold at8 zeros
      rw [List.getD_eq_getElem?_getD, List.getElem?_replicate]; split <;> rfl
    have hx0 : ∀ b : Byte, b ^^^ 0 = b := fun b => BitVec.xor_zero
    have happ1 : ∀ (a b : Bytes) q, q < a.length → at8 (a ++ b) q = at8 a q := by
      intro a b q hq; unfold at8
      rw [List.getD_eq_getElem?_getD, List.getD_eq_getElem?_getD, List.getElem?_append_left hq]
    have happ2 : ∀ (a b : Bytes) q, a.length ≤ q → at8 (a ++ b) q = at8 b (q - a.length) := by
      intro a b q hq; unfold at8
      rw [List.getD_eq_getElem?_getD, List.getD_eq_getElem?_getD, List.getElem?_append_right hq]
    have hx : ∀ (a : U64) (q : Nat), at8 (be64 (a ^^^ getBE64 data q)) i = at8 (be64 a) i ^^^ at8 data (q + i) := by
      intro a q
      rw [be64_xor, at8_zipWith _ _ _ _ (by rw [be64_length]; exact hi) (by rw [be64_length]; exact hi), be64_get (w := getBE64 data q) hi, getBE64_extract _ _ _ hi]
    rcases hk with rfl | rfl
    · rw [if_pos rfl]
      by_cases h8 : j < 8
      · rw [if_pos (by omega), hx, happ1 _ _ _ (by omega), Nat.sub_zero]
      · rw [if_neg (by omega), happ2 _ _ _ (by omega), hz, hx0]
    · rw [if_neg (show ¬ (8 = 0) by omega)]
      by_cases h8 : j < 8
      · rw [if_neg (by omega), happ1 _ _ _ (by rw [zeros_length]; omega), hz, hx0]
      · rw [if_pos (by omega), hx, happ2 _ _ _ (by rw [zeros_length]; omega), zeros_length, show 8 * (j - 8) + i = 8 * j + i - 64 by omega]

/-- The block function of the code is F8. -/
theorem processBlock_eq (h : List U64) (hl : h.length = 16) (data : Bytes) (hd : data.length = 64) :
    tb (processBlock h data) = Spec.JH.F8 (tb h) data ∧ (processBlock h data).length = 16 := by
  unfold processBlock
  dsimp only
  have m1 := mixIn_eq 0 (Or.inl rfl) data hd h hl
  obtain ⟨e1, e2⟩ := E8_eq (mixIn 0 data h) (mixIn_length _ _ _)
  have m2 := mixIn_eq 8 (Or.inr rfl) data hd _ e2
  refine ⟨?_, mixIn_length _ _ _⟩
  rw [m2, e1, m1]
  rfl

end Verif.JH2
