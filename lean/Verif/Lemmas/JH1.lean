import Verif.Lemmas.JH2F
import Verif.Lemmas.JHConsts
import Verif.Lemmas.Groestl
import Verif.Model.JH1
namespace Verif.JH1
open Verif.JH
open Spec.JH (bit)
open Verif.Groestl (uint64sToBytes tb_length tb_at)

/-- The bytes of the words. -/
abbrev tb := uint64sToBytes

/-- Bit p of the 128-bit word k: the bytes are in little-endian words, the bits in a byte most significant first. -/
def acc (h : List U64) (k p : Nat) : Bool := (h.getD (2 * k + p / 64) 0).getLsbD ((p % 64) ^^^ 7)

theorem xor7 (j : Nat) (h : j < 64) : j ^^^ 7 = 8 * (j / 8) + (7 - j % 8) ∧ j ^^^ 7 < 64 := by
  have : ∀ j : Fin 64, j.val ^^^ 7 = 8 * (j.val / 8) + (7 - j.val % 8) ∧ j.val ^^^ 7 < 64 := by decide +kernel
  exact this ⟨j, h⟩

theorem bit_tb (h : List U64) (hl : h.length = 16) (k p : Nat) (hk : k < 8) (hp : p < 128) : bit (tb h) (128 * k + p) = acc h k p := by
  unfold bit acc
  have e : (128 * k + p) / 8 = 8 * (2 * k + p / 64) + p % 64 / 8 := by omega
  rw [e, tb_at _ _ _ (by omega) (by omega), le64_get (by omega), BitVec.getLsbD_extractLsb', (xor7 (p % 64) (by omega)).1]
  rw [show (128 * k + p) % 8 = p % 8 by omega, decide_eq_true (by omega), Bool.true_and]
  congr 1; omega

/-- The constants as bits. -/
def cb (r b p : Nat) : Bool := (rc.getD (4 * r + (2 * b + p / 64)) 0).getLsbD ((p % 64) ^^^ 7)

/-- The constants used in round r. -/
def roundC (r : Nat) : List Bool := (List.range 256).map fun j => cb r (lay r j % 2) (lay r j / 2)

set_option maxRecDepth 100000
theorem const0 : Spec.JH.constsFrom 11 Spec.JH.C0 = (List.range 11).map fun r => roundC (0 + r) := by decide +kernel
theorem const11 : Spec.JH.constsFrom 11 JH.st11 = (List.range 11).map fun r => roundC (11 + r) := by decide +kernel
theorem const22 : Spec.JH.constsFrom 11 JH.st22 = (List.range 11).map fun r => roundC (22 + r) := by decide +kernel
theorem const33 : Spec.JH.constsFrom 9 JH.st33 = (List.range 9).map fun r => roundC (33 + r) := by decide +kernel
theorem const_ok : ConstOk cb := by
  unfold ConstOk
  show _ = (List.range 42).map roundC
  rw [JH.consts_parts, const0, const11, const22, const33]
  rfl
set_option maxRecDepth 512

/-- Word j of a column: even words first, then odd words. -/
theorem col_bits (x : List U64) (r q i k : Nat) (hi : i < 64) (hk : k < 4) :
    ((col x r q).getD k 0).getLsbD i = evenL
      (comp (sl ((rc.getD (4 * r + q) 0).getLsbD i) ((x.getD q 0).getLsbD i) ((x.getD (4 + q) 0).getLsbD i) ((x.getD (8 + q) 0).getLsbD i) ((x.getD (12 + q) 0).getLsbD i)))
      (comp (sl ((rc.getD (4 * r + q + 2) 0).getLsbD i) ((x.getD (2 + q) 0).getLsbD i) ((x.getD (6 + q) 0).getLsbD i) ((x.getD (10 + q) 0).getLsbD i) ((x.getD (14 + q) 0).getLsbD i))) k ∧
    ((col x r q).getD (4 + k) 0).getLsbD i = oddL
      (comp (sl ((rc.getD (4 * r + q) 0).getLsbD i) ((x.getD q 0).getLsbD i) ((x.getD (4 + q) 0).getLsbD i) ((x.getD (8 + q) 0).getLsbD i) ((x.getD (12 + q) 0).getLsbD i)))
      (comp (sl ((rc.getD (4 * r + q + 2) 0).getLsbD i) ((x.getD (2 + q) 0).getLsbD i) ((x.getD (6 + q) 0).getLsbD i) ((x.getD (10 + q) 0).getLsbD i) ((x.getD (14 + q) 0).getLsbD i))) k := by
  unfold col
  generalize rc.getD (4 * r + q) 0 = c0
  generalize rc.getD (4 * r + q + 2) 0 = c1
  generalize x.getD q 0 = a0
  generalize x.getD (4 + q) 0 = a1
  generalize x.getD (8 + q) 0 = a2
  generalize x.getD (12 + q) 0 = a3
  generalize x.getD (2 + q) 0 = a4
  generalize x.getD (6 + q) 0 = a5
  generalize x.getD (10 + q) 0 = a6
  generalize x.getD (14 + q) 0 = a7
  have hs : ∀ j, j < 4 → ((SS a0 a1 a2 a3 a4 a5 a6 a7 c0 c1).getD j 0).getLsbD i = comp (sl (c0.getLsbD i) (a0.getLsbD i) (a1.getLsbD i) (a2.getLsbD i) (a3.getLsbD i)) j ∧
      ((SS a0 a1 a2 a3 a4 a5 a6 a7 c0 c1).getD (4 + j) 0).getLsbD i = comp (sl (c1.getLsbD i) (a4.getLsbD i) (a5.getLsbD i) (a6.getLsbD i) (a7.getLsbD i)) j := by
    intro j hj
    interval_cases j <;>
      (constructor <;> simp only [SS, sl, comp, List.getD_cons_zero, List.getD_cons_succ, BitVec.getLsbD_xor, BitVec.getLsbD_and, BitVec.getLsbD_or, BitVec.getLsbD_not, hi,
        decide_true, Bool.true_and, Nat.reduceAdd, Nat.add_zero, Bool.and_comm])
  dsimp only
  generalize SS a0 a1 a2 a3 a4 a5 a6 a7 c0 c1 = s at hs
  have e := fun j hj => (hs j hj).1
  have o := fun j hj => (hs j hj).2
  have hL : ∀ k, k < 4 → ((L (s.getD 0 0) (s.getD 1 0) (s.getD 2 0) (s.getD 3 0) (s.getD 4 0) (s.getD 5 0) (s.getD 6 0) (s.getD 7 0)).getD k 0).getLsbD i =
        evenL (fun j => (s.getD j 0).getLsbD i) (fun j => (s.getD (4 + j) 0).getLsbD i) k ∧
      ((L (s.getD 0 0) (s.getD 1 0) (s.getD 2 0) (s.getD 3 0) (s.getD 4 0) (s.getD 5 0) (s.getD 6 0) (s.getD 7 0)).getD (4 + k) 0).getLsbD i =
        oddL (fun j => (s.getD j 0).getLsbD i) (fun j => (s.getD (4 + j) 0).getLsbD i) k := by
    intro k hk
    interval_cases k <;>
      (constructor <;> simp only [L, evenL, oddL, List.getD_cons_zero, List.getD_cons_succ, BitVec.getLsbD_xor, Nat.reduceAdd, Nat.add_zero, Bool.xor_comm, Bool.xor_left_comm])
  obtain ⟨l1, l2⟩ := hL k hk
  exact ⟨l1.trans (evenL_congr e o k), l2.trans (oddL_congr e o k)⟩

/-- A swap moves the bits by `n`. -/
def Swp (n : Nat) (f : U64 → U64) : Prop := ∀ w : U64, ∀ i, i < 64 → (f w).getLsbD i = w.getLsbD (i ^^^ n)

theorem round_bits (f : U64 → U64) (n : Nat) (hn : n < 64) (hf : Swp n f) (x : List U64) (r k p : Nat) (hk : k < 4) (hp : p < 128) :
    acc (round f x r) (2 * k) p = evenL (comp (sX (cb r) (acc x) 0 p)) (comp (sX (cb r) (acc x) 1 p)) k ∧
    acc (round f x r) (2 * k + 1) p = oddL (comp (sX (cb r) (acc x) 0 (p ^^^ n))) (comp (sX (cb r) (acc x) 1 (p ^^^ n))) k := by
  have hq : p / 64 = 0 ∨ p / 64 = 1 := by omega
  have hi := (xor7 (p % 64) (by omega)).2
  have hx1 : (p ^^^ n) / 64 = p / 64 := by
    have := Nat.xor_div_two_pow (a := p) (b := n) (n := 6)
    simp only [Nat.reducePow] at this
    rw [this, Nat.div_eq_of_lt hn, Nat.xor_zero]
  have hx2 : (p ^^^ n) % 64 = (p % 64) ^^^ n := by
    have := Nat.xor_mod_two_pow (a := p) (b := n) (n := 6)
    simp only [Nat.reducePow] at this
    rw [this, Nat.mod_eq_of_lt hn]
  have hx3 : (p % 64) ^^^ n < 64 := Nat.xor_lt_two_pow (n := 6) (by omega) hn
  have hx4 : ((p % 64) ^^^ 7) ^^^ n = ((p % 64) ^^^ n) ^^^ 7 := by rw [Nat.xor_assoc, Nat.xor_comm 7 n, ← Nat.xor_assoc]
  have hi2 := (xor7 ((p % 64) ^^^ n) hx3).2
  constructor
  · have := (col_bits x r (p / 64) ((p % 64) ^^^ 7) k hi hk).1
    have e : acc (round f x r) (2 * k) p = ((col x r (p / 64)).getD k 0).getLsbD ((p % 64) ^^^ 7) := by
      unfold acc round
      generalize (p % 64) ^^^ 7 = i
      rcases hq with h | h <;> rw [h] <;> interval_cases k <;> rfl
    rw [e, this]
    unfold sX cb acc
    simp only [Nat.mul_zero, Nat.mul_one, Nat.zero_add, Nat.reduceMul, Nat.reduceAdd, Nat.add_assoc, Nat.add_comm (p / 64) 2]
  · have := (col_bits x r (p / 64) (((p % 64) ^^^ n) ^^^ 7) k hi2 hk).2
    have e : acc (round f x r) (2 * k + 1) p = ((col x r (p / 64)).getD (4 + k) 0).getLsbD (((p % 64) ^^^ n) ^^^ 7) := by
      rw [← hx4]
      unfold acc round
      generalize (p % 64) ^^^ 7 = i at hi
      rcases hq with h | h <;> rw [h] <;> interval_cases k <;> exact hf _ _ hi
    rw [e, this]
    unfold sX cb acc
    rw [hx1, hx2]
    simp only [Nat.mul_zero, Nat.mul_one, Nat.zero_add, Nat.reduceMul, Nat.reduceAdd, Nat.add_assoc, Nat.add_comm (p / 64) 2]

theorem round_acc (f : U64 → U64) (r : Nat) (hr : r % 7 < 6) (hf : Swp (2 ^ (r % 7)) f) (x : List U64) : EqX (acc (round f x r)) (BS (cb r) (2 ^ (r % 7)) (acc x)) := by
  intro k p hk hp
  have hn : 2 ^ (r % 7) < 64 := by
    have : 2 ^ (r % 7) < 2 ^ 6 := Nat.pow_lt_pow_right (by omega) hr
    omega
  unfold BS
  obtain ⟨b1, b2⟩ := round_bits f _ hn hf x r (k / 2) p (by omega) hp
  by_cases h2 : k % 2 = 0
  · rw [if_pos h2, ← b1, show 2 * (k / 2) = k by omega]
  · rw [if_neg h2, ← b2, show 2 * (k / 2) + 1 = k by omega]

theorem swapHalves_acc (h : List U64) (k p : Nat) (hk : k < 8) (hp : p < 128) : acc (swapHalves h) k p = if k % 2 = 0 then acc h k p else acc h k (p ^^^ 2 ^ 6) := by
  have fact : ∀ p : Fin 128, (p.val ^^^ 2 ^ 6) / 64 = 1 - p.val / 64 ∧ (p.val ^^^ 2 ^ 6) % 64 = p.val % 64 := by decide +kernel
  obtain ⟨f1, f2⟩ := fact ⟨p, hp⟩
  dsimp only at f1 f2
  unfold acc
  rw [f1, f2]
  have hq : p / 64 = 0 ∨ p / 64 = 1 := by omega
  generalize (p % 64) ^^^ 7 = i
  generalize p / 64 = q at hq
  rcases hq with rfl | rfl <;> interval_cases k <;> simp [swapHalves]

theorem last_acc (r : Nat) (hr : r % 7 = 6) (x : List U64) : EqX (acc (swapHalves (round id x r))) (BS (cb r) (2 ^ (r % 7)) (acc x)) := by
  intro k p hk hp
  rw [swapHalves_acc _ _ _ hk hp, hr]
  unfold BS
  have hid : Swp 0 id := by intro w i _; rw [Nat.xor_zero]; rfl
  by_cases h2 : k % 2 = 0
  · rw [if_pos h2, if_pos h2]
    have := (round_bits id 0 (by omega) hid x r (k / 2) p (by omega) hp).1
    rw [show 2 * (k / 2) = k by omega] at this
    exact this
  · rw [if_neg h2, if_neg h2]
    have := (round_bits id 0 (by omega) hid x r (k / 2) (p ^^^ 2 ^ 6) (by omega) (xor_lt p 6 hp)).2
    rw [show 2 * (k / 2) + 1 = k by omega, Nat.xor_zero] at this
    exact this

theorem sw0 : Swp (2 ^ 0) (SWAP 0x5555555555555555 1) := by intro w i hi; unfold SWAP; interval_cases i <;> simp [-BitVec.getLsbD_eq_getElem]
theorem sw1 : Swp (2 ^ 1) (SWAP 0x3333333333333333 2) := by intro w i hi; unfold SWAP; interval_cases i <;> simp [-BitVec.getLsbD_eq_getElem]
theorem sw2 : Swp (2 ^ 2) (SWAP 0x0f0f0f0f0f0f0f0f 4) := by intro w i hi; unfold SWAP; interval_cases i <;> simp [-BitVec.getLsbD_eq_getElem]
theorem sw3 : Swp (2 ^ 3) (SWAP 0x00ff00ff00ff00ff 8) := by intro w i hi; unfold SWAP; interval_cases i <;> simp [-BitVec.getLsbD_eq_getElem]
theorem sw4 : Swp (2 ^ 4) (SWAP 0x0000ffff0000ffff 16) := by intro w i hi; unfold SWAP; interval_cases i <;> simp [-BitVec.getLsbD_eq_getElem]
theorem sw5 : Swp (2 ^ 5) SWAP32 := by intro w i hi; unfold SWAP32; interval_cases i <;> simp [-BitVec.getLsbD_eq_getElem]

theorem rounds7_acc (h : List U64) (j : Nat) (X : Nat → Nat → Bool) (hX : EqX (acc h) (runX cb X (7 * j))) : EqX (acc (rounds7 h (7 * j))) (runX cb X (7 * (j + 1))) := by
  have step : ∀ (f : U64 → U64) (r : Nat) (h : List U64), r % 7 < 6 → Swp (2 ^ (r % 7)) f → EqX (acc h) (runX cb X r) → EqX (acc (round f h r)) (runX cb X (r + 1)) := by
    intro W r h hr6 hW hr k p hk hp
    rw [round_acc W r hr6 hW h k p hk hp]
    exact BS_congr (cb r) r hr k p hk hp
  have m : ∀ t, t < 7 → (7 * j + t) % 7 = t := by intro t ht; omega
  unfold rounds7
  dsimp only
  rw [show 7 * (j + 1) = 7 * j + 6 + 1 by omega]
  have last : ∀ h, EqX (acc h) (runX cb X (7 * j + 6)) → EqX (acc (swapHalves (round id h (7 * j + 6)))) (runX cb X (7 * j + 6 + 1)) := by
    intro h hr k p hk hp
    rw [last_acc (7 * j + 6) (m 6 (by omega)) h k p hk hp]
    exact BS_congr (cb _) _ hr k p hk hp
  refine last _ ?_
  refine step _ (7 * j + 5) _ (by omega) (by rw [m 5 (by omega)]; exact sw5) ?_
  refine step _ (7 * j + 4) _ (by omega) (by rw [m 4 (by omega)]; exact sw4) ?_
  refine step _ (7 * j + 3) _ (by omega) (by rw [m 3 (by omega)]; exact sw3) ?_
  refine step _ (7 * j + 2) _ (by omega) (by rw [m 2 (by omega)]; exact sw2) ?_
  refine step _ (7 * j + 1) _ (by omega) (by rw [m 1 (by omega)]; exact sw1) ?_
  exact step _ (7 * j + 0) _ (by omega) (by rw [m 0 (by omega)]; exact sw0) hX

/-- All rounds of the code are E8. -/
theorem e8_eq (h : List U64) (hl : h.length = 16) : tb (e8 h) = Spec.JH.E8 (tb h) ∧ (e8 h).length = 16 := by
  have key : ∀ n, EqX (acc ((List.range n).foldl (fun h i => rounds7 h (7 * i)) h)) (runX cb (acc h) (7 * n)) ∧
      ((List.range n).foldl (fun h i => rounds7 h (7 * i)) h).length = 16 := by
    intro n
    induction n with
    | zero => exact ⟨fun _ _ _ _ => rfl, hl⟩
    | succ n ih =>
      rw [List.range_succ, List.foldl_append]
      exact ⟨rounds7_acc _ n _ ih.1, rfl⟩
  unfold e8
  obtain ⟨k1, k2⟩ := key 6
  refine ⟨?_, k2⟩
  apply ext_bits
  · rw [tb_length, k2, E8_length]
  · intro i hi
    rw [tb_length, k2] at hi
    have hk : i / 128 < 8 := by omega
    have hp : i % 128 < 128 := by omega
    have e1 := E8_bits cb const_ok (tb h) (i / 128) (i % 128) hk hp
    have e2 := bit_tb _ k2 (i / 128) (i % 128) hk hp
    rw [show 128 * (i / 128) + i % 128 = i by omega] at e1 e2
    rw [e1, e2, k1 _ _ hk hp]
    exact runX_congr cb (fun k p hk hp => (bit_tb h hl k p hk hp).symm) 42 _ _ hk hp

theorem mix_eq (lo : Bool) (data : Bytes) (hd : data.length = 64) (h : List U64) (hl : h.length = 16) (g : Nat → U64)
    (hg : ∀ i, i < 16 → g i = if lo then (if i < 8 then h.getD i 0 ^^^ getLE64 data (8 * i) else h.getD i 0)
      else (if 8 ≤ i then h.getD i 0 ^^^ getLE64 data (8 * (i - 8)) else h.getD i 0)) :
    tb ((List.range 16).map g) = Spec.JH.xor (tb h) (if lo then data ++ zeros 64 else zeros 64 ++ data) := by
  have hml : ((List.range 16).map g).length = 16 := by simp
  have hdl : (if lo then data ++ zeros 64 else zeros 64 ++ data).length = 128 := by split <;> simp [hd]
  unfold Spec.JH.xor
  apply ext_at8
  · rw [tb_length, List.length_zipWith, tb_length, hml, hl, hdl]; rfl
  · intro n hn
    rw [tb_length, hml] at hn
    rw [at8_zipWith _ _ _ _ (by rw [tb_length, hl]; exact hn) (by omega)]
    obtain ⟨j, i, hj, hi, rfl⟩ : ∃ j i, j < 16 ∧ i < 8 ∧ n = 8 * j + i := ⟨n / 8, n % 8, by omega, by omega, by omega⟩
    rw [tb_at _ j i (by omega) hi, tb_at h j i (by omega) hi, getD_range _ _ _ hj, hg j hj]
    have hz : ∀ q, at8 (zeros 64) q = 0 := by
      intro q; unfold at8 zeros
      rw [List.getD_eq_getElem?_getD, List.getElem?_replicate]; split <;> rfl
    have hx0 : ∀ b : Byte, b ^^^ 0 = b := fun b => BitVec.xor_zero
    have happ1 : ∀ (a b : Bytes) q, q < a.length → at8 (a ++ b) q = at8 a q := by
      intro a b q hq; unfold at8
      rw [List.getD_eq_getElem?_getD, List.getD_eq_getElem?_getD, List.getElem?_append_left hq]
    have happ2 : ∀ (a b : Bytes) q, a.length ≤ q → at8 (a ++ b) q = at8 b (q - a.length) := by
      intro a b q hq; unfold at8
      rw [List.getD_eq_getElem?_getD, List.getD_eq_getElem?_getD, List.getElem?_append_right hq]
    have hx : ∀ (a : U64) (q : Nat), at8 (le64 (a ^^^ getLE64 data q)) i = at8 (le64 a) i ^^^ at8 data (q + i) := by
      intro a q
      rw [Groestl.at_xor _ _ _ hi, le64_get (w := getLE64 data q) hi, getLE64_extract _ _ _ hi]
    cases lo
    · simp only [Bool.false_eq_true, if_false]
      by_cases h8 : j < 8
      · rw [if_neg (by omega), happ1 _ _ _ (by rw [zeros_length]; omega), hz, hx0]
      · rw [if_pos (by omega), hx, happ2 _ _ _ (by rw [zeros_length]; omega), zeros_length, show 8 * (j - 8) + i = 8 * j + i - 64 by omega]
    · simp only [if_true]
      by_cases h8 : j < 8
      · rw [if_pos (by omega), hx, happ1 _ _ _ (by omega)]
      · rw [if_neg (by omega), happ2 _ _ _ (by omega), hz, hx0]

/-- The block function of the code is F8. -/
theorem f8_eq (h : List U64) (hl : h.length = 16) (data : Bytes) (hd : data.length = 64) :
    tb (f8 h data) = Spec.JH.F8 (tb h) data ∧ (f8 h data).length = 16 := by
  unfold f8
  dsimp only
  have m1 := mix_eq true data hd h hl (fun i => if i < 8 then h.getD i 0 ^^^ getLE64 data (8 * i) else h.getD i 0) (fun i _ => by simp only [if_true])
  generalize hh1 : (List.range 16).map (fun i => if i < 8 then h.getD i 0 ^^^ getLE64 data (8 * i) else h.getD i 0) = h1 at m1
  have l1 : h1.length = 16 := by rw [← hh1]; simp
  obtain ⟨e1, e2⟩ := e8_eq h1 l1
  have m2 := mix_eq false data hd (e8 h1) e2 (fun i => if 8 ≤ i then (e8 h1).getD i 0 ^^^ getLE64 data (8 * (i - 8)) else (e8 h1).getD i 0)
    (fun i _ => by simp only [Bool.false_eq_true, if_false])
  refine ⟨?_, by simp⟩
  rw [m2, e1, m1]
  rfl

end Verif.JH1
