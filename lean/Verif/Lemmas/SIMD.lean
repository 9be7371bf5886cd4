import Verif.Model.SIMD
import Verif.Spec.SIMD
import Mathlib.Data.ZMod.Basic
import Mathlib.Algebra.BigOperators.Group.Finset.Basic
import Mathlib.Tactic.Ring
/-
The transform of package simd: the 32-bit arithmetic does not overflow and computes the number-theoretic transform modulo 257.
-/
namespace Verif.SIMD

abbrev F := ZMod 257

/-- The number x is between -b and b and stands for v. -/
structure Nr (b : Int) (x : I32) (v : F) : Prop where
  lo : -b ≤ x.toInt
  hi : x.toInt ≤ b
  eq : (x.toInt : F) = v

theorem Nr.mono {a b : Int} {x : I32} {v : F} (h : Nr a x v) (hab : a ≤ b) : Nr b x v := ⟨by have := h.lo; omega, by have := h.hi; omega, h.eq⟩

theorem bm (z : Int) (h1 : -2147483648 ≤ z) (h2 : z < 2147483648) : z.bmod (2 ^ 32) = z := by
  apply Int.bmod_eq_of_le
  · simp only [Nat.reducePow]; omega
  · simp only [Nat.reducePow]; omega

theorem Nr.add {a b : Int} {x y : I32} {u v : F} (hx : Nr a x u) (hy : Nr b y v) (h : a + b < 2147483648) : Nr (a + b) (x + y) (u + v) := by
  obtain ⟨x1, x2, x3⟩ := hx
  obtain ⟨y1, y2, y3⟩ := hy
  have e : (x + y).toInt = x.toInt + y.toInt := by rw [BitVec.toInt_add]; exact bm _ (by omega) (by omega)
  refine ⟨by omega, by omega, ?_⟩
  rw [e, Int.cast_add, x3, y3]

theorem Nr.sub {a b : Int} {x y : I32} {u v : F} (hx : Nr a x u) (hy : Nr b y v) (h : a + b < 2147483648) : Nr (a + b) (x - y) (u - v) := by
  obtain ⟨x1, x2, x3⟩ := hx
  obtain ⟨y1, y2, y3⟩ := hy
  have e : (x - y).toInt = x.toInt - y.toInt := by rw [BitVec.toInt_sub]; exact bm _ (by omega) (by omega)
  refine ⟨by omega, by omega, ?_⟩
  rw [e, Int.cast_sub, x3, y3]

theorem Nr.mulc {a c : Int} {x y : I32} {u : F} (hx : Nr a x u) (hy1 : 0 ≤ y.toInt) (hy2 : y.toInt ≤ c) (h : a * c < 2147483648) (ha : 0 ≤ a) :
    Nr (a * c) (x * y) (u * (y.toInt : F)) := by
  obtain ⟨x1, x2, x3⟩ := hx
  have b1 : x.toInt * y.toInt ≤ a * c := by
    calc x.toInt * y.toInt ≤ a * y.toInt := Int.mul_le_mul_of_nonneg_right x2 hy1
      _ ≤ a * c := Int.mul_le_mul_of_nonneg_left hy2 ha
  have b2 : -(a * c) ≤ x.toInt * y.toInt := by
    have t1 : (-a) * y.toInt ≤ x.toInt * y.toInt := Int.mul_le_mul_of_nonneg_right x1 hy1
    have t2 : a * y.toInt ≤ a * c := Int.mul_le_mul_of_nonneg_left hy2 ha
    rw [Int.neg_mul] at t1
    omega
  have e : (x * y).toInt = x.toInt * y.toInt := by rw [BitVec.toInt_mul]; exact bm _ (by omega) (by omega)
  refine ⟨by omega, by omega, ?_⟩
  rw [e, Int.cast_mul, x3]

theorem twoPow_toInt (k : Nat) (h : k < 8) : (BitVec.twoPow 32 k).toInt = 2 ^ k := by
  obtain rfl | rfl | rfl | rfl | rfl | rfl | rfl | rfl : k = 0 ∨ k = 1 ∨ k = 2 ∨ k = 3 ∨ k = 4 ∨ k = 5 ∨ k = 6 ∨ k = 7 := by omega
  all_goals decide

theorem Nr.shl {a : Int} {x : I32} {u : F} (k : Nat) (hk : k < 8) (hx : Nr a x u) (h : a * 2 ^ k < 2147483648) (ha : 0 ≤ a) : Nr (a * 2 ^ k) (x <<< k) (u * 2 ^ k) := by
  have e := twoPow_toInt k hk
  have h0 : (0 : Int) ≤ 2 ^ k := by
    obtain rfl | rfl | rfl | rfl | rfl | rfl | rfl | rfl : k = 0 ∨ k = 1 ∨ k = 2 ∨ k = 3 ∨ k = 4 ∨ k = 5 ∨ k = 6 ∨ k = 7 := by omega
    all_goals decide
  have := hx.mulc (y := BitVec.twoPow 32 k) (c := 2 ^ k) (by rw [e]; exact h0) (by rw [e]) h ha
  rw [BitVec.shiftLeft_eq_mul_twoPow]
  rw [e] at this
  rw [show u * 2 ^ k = u * (((2 ^ k : Int)) : F) by push_cast; rfl]
  exact this

theorem and_toInt (x : I32) (k : Nat) (hk : k < 31) (m : I32) (hm : m = BitVec.ofNat 32 (2 ^ k - 1)) : (x &&& m).toInt = x.toInt % 2 ^ k := by
  have hp : 2 ^ k < 2 ^ 31 := Nat.pow_lt_pow_right (by omega) hk
  have e : (x &&& m).toNat = x.toNat % 2 ^ k := by
    have hl : 2 ^ k - 1 < 2 ^ 32 := by simp only [Nat.reducePow] at *; omega
    rw [hm, BitVec.toNat_and, BitVec.toNat_ofNat, Nat.mod_eq_of_lt hl, Nat.and_two_pow_sub_one_eq_mod]
  have hlt : x.toNat % 2 ^ k < 2 ^ k := Nat.mod_lt _ (Nat.two_pow_pos k)
  rw [BitVec.toInt_eq_toNat_cond, e, if_pos (show 2 * (x.toNat % 2 ^ k) < 2 ^ 32 by simp only [Nat.reducePow] at *; omega)]
  have hd : ((2 ^ 32 : Nat) : Int) % 2 ^ k = 0 := by
    apply Int.emod_eq_zero_of_dvd
    push_cast
    exact pow_dvd_pow 2 (show k ≤ 32 by omega)
  rw [BitVec.toInt_eq_toNat_cond]
  split
  · push_cast; rfl
  · rw [Int.sub_emod, hd, Int.sub_zero, Int.emod_emod]; push_cast; rfl

theorem sshr_toInt (x : I32) (k : Nat) : (x.sshiftRight k).toInt = x.toInt / 2 ^ k := by
  rw [BitVec.toInt_sshiftRight, Int.shiftRight_eq_div_pow]; push_cast; rfl

theorem c257 : ((257 : Int) : F) = 0 := by decide

theorem Nr.reds1 {a : Int} {x : I32} {u : F} (hx : Nr a x u) (ha : a < 2147483648) : Nr (256 + a / 256) (REDS1 x) u := by
  obtain ⟨x1, x2, x3⟩ := hx
  have e1 := and_toInt x 8 (by omega) 0xFF#32 rfl
  have e2 := sshr_toInt x 8
  have e : (REDS1 x).toInt = x.toInt % 256 - x.toInt / 256 := by
    unfold REDS1
    rw [BitVec.toInt_sub, e1, e2]
    exact bm _ (by omega) (by omega)
  refine ⟨by omega, by omega, ?_⟩
  rw [e, ← x3]
  have : x.toInt % 256 - x.toInt / 256 = x.toInt - 257 * (x.toInt / 256) := by omega
  rw [this, Int.cast_sub, Int.cast_mul, c257, zero_mul, sub_zero]

theorem Nr.reds2 {a : Int} {x : I32} {u : F} (hx : Nr a x u) (ha : a < 2147483648) : Nr (65536 + a / 65536) (REDS2 x) u := by
  obtain ⟨x1, x2, x3⟩ := hx
  have e1 := and_toInt x 16 (by omega) 0xFFFF#32 rfl
  have e2 := sshr_toInt x 16
  have e : (REDS2 x).toInt = x.toInt % 65536 + x.toInt / 65536 := by
    unfold REDS2
    rw [BitVec.toInt_add, e1, e2]
    exact bm _ (by omega) (by omega)
  refine ⟨by omega, by omega, ?_⟩
  rw [e, ← x3]
  have : x.toInt % 65536 + x.toInt / 65536 = x.toInt - 257 * (255 * (x.toInt / 65536)) := by omega
  rw [this, Int.cast_sub, Int.cast_mul, c257, zero_mul, sub_zero]

/-- A byte of the block. -/
def X (x : Bytes) (i : Nat) : F := ((at8 x i).toNat : F)

theorem nr_xi (x : Bytes) (i : Nat) : Nr 255 (xi x i) (X x i) := by
  have h : (xi x i).toNat = (at8 x i).toNat := by
    unfold xi; rw [BitVec.toNat_setWidth]; exact Nat.mod_eq_of_lt (by have := (at8 x i).isLt; omega)
  have hb := (at8 x i).isLt
  have e : (xi x i).toInt = ((at8 x i).toNat : Int) := by
    rw [BitVec.toInt_eq_toNat_cond, h, if_pos (by simp only [Nat.reducePow] at *; omega)]
  refine ⟨by omega, by omega, ?_⟩
  rw [e]; simp [X]

theorem half_spec {x0 x1 x2 x3 : I32} {v0 v1 v2 v3 : F} (h0 : Nr 255 x0 v0) (h1 : Nr 255 x1 v1) (h2 : Nr 255 x2 v2) (h3 : Nr 255 x3 v3) :
    (∀ k < 8, Nr 9000 ((half x0 x1 x2 x3).getD k 0) (v0 + 4 ^ k * v1 + 16 ^ k * v2 + 64 ^ k * v3)) ∧ Nr 1020 ((half x0 x1 x2 x3).getD 0 0) (v0 + v1 + v2 + v3) := by
  have a0 := h0.add h2 (by omega)
  have a1 := h0.add (h2.shl 4 (by omega) (by omega) (by omega)) (by omega)
  have a2 := h0.sub h2 (by omega)
  have a3 := h0.sub (h2.shl 4 (by omega) (by omega) (by omega)) (by omega)
  have b0 := h1.add h3 (by omega)
  have b1 := ((h1.shl 2 (by omega) (by omega) (by omega)).add (h3.shl 6 (by omega) (by omega) (by omega)) (by omega)).reds1 (by omega)
  have b2 := (h1.shl 4 (by omega) (by omega) (by omega)).sub (h3.shl 4 (by omega) (by omega) (by omega)) (by omega)
  have b3 := ((h1.shl 6 (by omega) (by omega) (by omega)).add (h3.shl 2 (by omega) (by omega) (by omega)) (by omega)).reds1 (by omega)
  have p0 := a0.add b0 (by omega)
  refine ⟨?_, by
    have e : v0 + v2 + (v1 + v3) = v0 + v1 + v2 + v3 := by ring
    rw [← e]; exact p0.mono (by omega)⟩
  intro k hk
  obtain rfl | rfl | rfl | rfl | rfl | rfl | rfl | rfl : k = 0 ∨ k = 1 ∨ k = 2 ∨ k = 3 ∨ k = 4 ∨ k = 5 ∨ k = 6 ∨ k = 7 := by omega
  · have e : v0 + 4 ^ 0 * v1 + 16 ^ 0 * v2 + 64 ^ 0 * v3 = v0 + v2 + (v1 + v3) := by ring
    rw [e]; exact p0.mono (by omega)
  · have e : v0 + 4 ^ 1 * v1 + 16 ^ 1 * v2 + 64 ^ 1 * v3 = v0 + v2 * 2 ^ 4 + (v1 * 2 ^ 2 + v3 * 2 ^ 6) := by ring
    rw [e]; exact (a1.add b1 (by decide)).mono (by decide)
  · have e : v0 + 4 ^ 2 * v1 + 16 ^ 2 * v2 + 64 ^ 2 * v3 = v0 - v2 + (v1 * 2 ^ 4 - v3 * 2 ^ 4) := by
      rw [show (16 : F) ^ 2 = -1 by decide, show (64 : F) ^ 2 = -16 by decide]; ring
    rw [e]; exact (a2.add b2 (by omega)).mono (by omega)
  · have e : v0 + 4 ^ 3 * v1 + 16 ^ 3 * v2 + 64 ^ 3 * v3 = v0 - v2 * 2 ^ 4 + (v1 * 2 ^ 6 + v3 * 2 ^ 2) := by
      rw [show (16 : F) ^ 3 = -16 by decide, show (64 : F) ^ 3 = 4 by decide]; ring
    rw [e]; exact (a3.add b3 (by decide)).mono (by decide)
  · have e : v0 + 4 ^ 4 * v1 + 16 ^ 4 * v2 + 64 ^ 4 * v3 = v0 + v2 - (v1 + v3) := by
      rw [show (4 : F) ^ 4 = -1 by decide, show (16 : F) ^ 4 = 1 by decide, show (64 : F) ^ 4 = -1 by decide]; ring
    rw [e]; exact (a0.sub b0 (by omega)).mono (by omega)
  · have e : v0 + 4 ^ 5 * v1 + 16 ^ 5 * v2 + 64 ^ 5 * v3 = v0 + v2 * 2 ^ 4 - (v1 * 2 ^ 2 + v3 * 2 ^ 6) := by
      rw [show (4 : F) ^ 5 = -4 by decide, show (16 : F) ^ 5 = 16 by decide, show (64 : F) ^ 5 = -64 by decide]; ring
    rw [e]; exact (a1.sub b1 (by decide)).mono (by decide)
  · have e : v0 + 4 ^ 6 * v1 + 16 ^ 6 * v2 + 64 ^ 6 * v3 = v0 - v2 - (v1 * 2 ^ 4 - v3 * 2 ^ 4) := by
      rw [show (4 : F) ^ 6 = -16 by decide, show (16 : F) ^ 6 = -1 by decide, show (64 : F) ^ 6 = 16 by decide]; ring
    rw [e]; exact (a2.sub b2 (by omega)).mono (by omega)
  · have e : v0 + 4 ^ 7 * v1 + 16 ^ 7 * v2 + 64 ^ 7 * v3 = v0 - v2 * 2 ^ 4 - (v1 * 2 ^ 6 + v3 * 2 ^ 2) := by
      rw [show (4 : F) ^ 7 = -64 by decide, show (16 : F) ^ 7 = -16 by decide, show (64 : F) ^ 7 = -4 by decide]; ring
    rw [e]; exact (a3.sub b3 (by decide)).mono (by decide)

/-- A transform of n bytes, at xb, xb + u, ..., with the root 41^e. -/
def T (x : Bytes) (xb u n e i : Nat) : F := (Finset.range n).sum fun j => X x (xb + u * j) * 41 ^ (e * i * j)

theorem T8 (x : Bytes) (xb u i : Nat) : T x xb u 8 16 i = (X x xb + 4 ^ i * X x (xb + 2 * u) + 16 ^ i * X x (xb + 4 * u) + 64 ^ i * X x (xb + 6 * u)) +
    (X x (xb + u) + 4 ^ i * X x (xb + 3 * u) + 16 ^ i * X x (xb + 5 * u) + 64 ^ i * X x (xb + 7 * u)) * 2 ^ i := by
  have h : ∀ j, (41 : F) ^ (16 * i * j) = (2 ^ j) ^ i := by
    intro j
    rw [Nat.mul_assoc, pow_mul, show (41 : F) ^ 16 = 2 by decide, Nat.mul_comm, pow_mul]
  unfold T
  simp only [Finset.sum_range_succ, Finset.sum_range_zero, h]
  rw [show (4 : F) ^ i = (2 ^ i) ^ 2 by rw [← pow_mul, Nat.mul_comm, pow_mul]; norm_num,
    show (16 : F) ^ i = (2 ^ i) ^ 4 by rw [← pow_mul, Nat.mul_comm, pow_mul]; norm_num,
    show (64 : F) ^ i = (2 ^ i) ^ 6 by rw [← pow_mul, Nat.mul_comm, pow_mul]; norm_num]
  have p : ∀ j, ((2 : F) ^ j) ^ i = (2 ^ i) ^ j := by intro j; rw [← pow_mul, Nat.mul_comm, pow_mul]
  simp only [p]
  rw [Nat.mul_zero, Nat.add_zero, Nat.mul_one, Nat.mul_comm u 2, Nat.mul_comm u 3, Nat.mul_comm u 4, Nat.mul_comm u 5, Nat.mul_comm u 6, Nat.mul_comm u 7]
  ring

theorem fft16_spec (x : Bytes) (xb u : Nat) :
    (∀ i < 16, Nr 1200000 ((fft16 x xb u).getD i 0) (T x xb u 8 16 i)) ∧ Nr (255 * 8) ((fft16 x xb u).getD 0 0) (T x xb u 8 16 0) := by
  obtain ⟨d1, d10⟩ := half_spec (nr_xi x xb) (nr_xi x (xb + 2 * u)) (nr_xi x (xb + 4 * u)) (nr_xi x (xb + 6 * u))
  obtain ⟨d2, d20⟩ := half_spec (nr_xi x (xb + u)) (nr_xi x (xb + 3 * u)) (nr_xi x (xb + 5 * u)) (nr_xi x (xb + 7 * u))
  have get : ∀ i < 16, (fft16 x xb u).getD i 0 = if i < 8 then
      (half (xi x xb) (xi x (xb + 2 * u)) (xi x (xb + 4 * u)) (xi x (xb + 6 * u))).getD i 0 + ((half (xi x (xb + u)) (xi x (xb + 3 * u)) (xi x (xb + 5 * u)) (xi x (xb + 7 * u))).getD i 0 <<< i)
      else (half (xi x xb) (xi x (xb + 2 * u)) (xi x (xb + 4 * u)) (xi x (xb + 6 * u))).getD (i - 8) 0 -
        ((half (xi x (xb + u)) (xi x (xb + 3 * u)) (xi x (xb + 5 * u)) (xi x (xb + 7 * u))).getD (i - 8) 0 <<< (i - 8)) := by
    intro i hi
    unfold fft16
    simp only [List.getD_eq_getElem?_getD, List.getElem?_map, List.getElem?_range hi, Option.map_some, Option.getD_some]
  have hp : ∀ k < 8, (9000 : Int) * 2 ^ k ≤ 1152000 := by
    intro k hk
    obtain rfl | rfl | rfl | rfl | rfl | rfl | rfl | rfl : k = 0 ∨ k = 1 ∨ k = 2 ∨ k = 3 ∨ k = 4 ∨ k = 5 ∨ k = 6 ∨ k = 7 := by omega
    all_goals decide
  refine ⟨?_, ?_⟩
  · intro i hi
    rw [get i hi, T8]
    by_cases c : i < 8
    · rw [if_pos c]
      have := hp i c
      exact ((d1 i c).add ((d2 i c).shl i c (by omega) (by omega)) (by omega)).mono (by omega)
    · rw [if_neg c]
      have hk : i - 8 < 8 := by omega
      have := hp (i - 8) hk
      have := ((d1 (i - 8) hk).sub ((d2 (i - 8) hk).shl (i - 8) hk (by omega) (by omega)) (by omega)).mono (b := 1200000) (by omega)
      obtain ⟨k, rfl⟩ : ∃ k, i = k + 8 := ⟨i - 8, by omega⟩
      rw [Nat.add_sub_cancel] at this ⊢
      rw [pow_add 4, pow_add 16, pow_add 64, pow_add 2, show (4 : F) ^ 8 = 1 by decide, show (16 : F) ^ 8 = 1 by decide, show (64 : F) ^ 8 = 1 by decide,
        show (2 : F) ^ 8 = -1 by decide]
      rw [mul_one, mul_one, mul_one, mul_neg_one, mul_neg, ← sub_eq_add_neg]
      exact this
  · rw [get 0 (by omega), if_pos (by omega), T8]
    have := (d10.add (d20.shl 0 (by omega) (by omega) (by omega)) (by omega)).mono (b := 255 * 8) (by omega)
    simp only [pow_zero, one_mul, mul_one] at this ⊢
    exact this

end Verif.SIMD
