import Verif.Lemmas.SIMD2
import Verif.Spec.SIMD
import Mathlib.Tactic.IntervalCases
namespace Verif.SIMD


theorem reduce_spec {a : Int} {t : I32} {v : F} (h : Nr a t v) (ha : a ≤ 1600000) :
    -128 ≤ (reduce t).toInt ∧ (reduce t).toInt ≤ 128 ∧ ((reduce t).toInt : F) = v := by
  have h1 := (h.reds2 (by omega)).mono (b := 65561) (by omega)
  have h2 := (h1.reds1 (by omega)).mono (b := 512) (by decide)
  have h3 := h2.reds1 (by omega)
  have e1 := and_toInt (REDS1 (REDS2 t)) 8 (by omega) 0xFF#32 rfl
  have e2 := sshr_toInt (REDS1 (REDS2 t)) 8
  obtain ⟨l2, u2, _⟩ := h2
  unfold reduce
  dsimp only
  generalize REDS1 (REDS2 t) = w at *
  have e : (REDS1 w).toInt = w.toInt % 256 - w.toInt / 256 := by
    unfold REDS1; rw [BitVec.toInt_sub, e1, e2]; exact bm _ (by omega) (by omega)
  have h4 := h3.eq
  have b1 : -2 ≤ (REDS1 w).toInt := by omega
  have b2 : (REDS1 w).toInt ≤ 257 := by omega
  have c128 : (128#32).toInt = 128 := by decide
  have c257' : (257#32).toInt = 257 := by decide
  by_cases c : (REDS1 w).sle 128#32 = true
  · rw [if_pos c]
    rw [BitVec.sle_eq_decide, decide_eq_true_eq, c128] at c
    exact ⟨by omega, c, h4⟩
  · rw [if_neg c]
    rw [BitVec.sle_eq_decide, decide_eq_true_eq, c128] at c
    have e5 : (REDS1 w - 257#32).toInt = (REDS1 w).toInt - 257 := by rw [BitVec.toInt_sub, c257']; exact bm _ (by omega) (by omega)
    refine ⟨by omega, by omega, ?_⟩
    rw [e5, Int.cast_sub, h4, c257, sub_zero]

theorem lift_eq (r : Int) (y : Nat) (hy : y < 257) (h1 : -128 ≤ r) (h2 : r ≤ 128) (h : (r : F) = (y : F)) : r = Spec.SIMD.lift y := by
  have h' : (r : F) = ((y : Int) : F) := by rw [h]; simp
  rw [ZMod.intCast_eq_intCast_iff] at h'
  have h'' : r % 257 = (y : Int) % 257 := h'
  unfold Spec.SIMD.lift
  split <;> omega

/-! The transform of the specification as a sum in F -/

theorem list_sum (f : Nat → Nat) (n : Nat) : ((List.range n).map f).sum = (Finset.range n).sum f := by
  induction n with
  | zero => rfl
  | succ n ih => rw [List.range_succ, List.map_append, List.sum_append, ih, Finset.sum_range_succ]; simp

theorem sum_cut (f : Nat → F) (a b : Nat) : (Finset.range (a + b)).sum (fun j => if j < a then f j else 0) = (Finset.range a).sum f := by
  induction b with
  | zero => exact Finset.sum_congr rfl fun j hj => if_pos (Finset.mem_range.mp hj)
  | succ b ih => rw [← Nat.add_assoc, Finset.sum_range_succ, ih, if_neg (by omega), add_zero]

theorem y_lt (v : Spec.SIMD.Variant) (last : Bool) (b : Bytes) (i : Nat) : Spec.SIMD.y v last b i < 257 := Nat.mod_lt _ (by omega)

theorem y_cast (v : Spec.SIMD.Variant) (last : Bool) (b : Bytes) (i e : Nat) (hn : 4 ≤ v.n) (ha : (v.α : F) = 41 ^ e) :
    ((Spec.SIMD.y v last b i : Nat) : F) = T b 0 1 (16 * v.n) e i + (v.α : F) ^ (i * (32 * v.n - 1)) + if last then (v.α : F) ^ (i * (32 * v.n - 3)) else 0 := by
  unfold Spec.SIMD.y
  rw [ZMod.natCast_mod, list_sum, Nat.cast_sum]
  have key : ∀ j ∈ Finset.range (32 * v.n), ((Spec.SIMD.input v last b j * v.α ^ (i * j) : Nat) : F) =
      ((if j < 16 * v.n then X b j * 41 ^ (e * i * j) else 0) + (if j = 32 * v.n - 1 then (v.α : F) ^ (i * j) else 0)) +
        (if j = 32 * v.n - 3 then (if last then (v.α : F) ^ (i * j) else 0) else 0) := by
    intro j hj
    have hj' := Finset.mem_range.mp hj
    unfold Spec.SIMD.input
    by_cases c1 : j < 16 * v.n
    · rw [if_pos c1, if_pos c1, if_neg (by omega), if_neg (by omega), add_zero, add_zero]
      push_cast
      rw [ha, ← pow_mul, ← Nat.mul_assoc]; rfl
    · rw [if_neg c1, if_neg c1, zero_add]
      by_cases c2 : j = 32 * v.n - 1
      · rw [if_pos (Or.inl c2), if_pos c2, if_neg (by omega), add_zero]; push_cast; rw [one_mul]
      · rw [if_neg c2, zero_add]
        by_cases c3 : j = 32 * v.n - 3
        · rw [if_pos c3]
          cases last
          · rw [if_neg (by simp [c2])]; simp
          · rw [if_pos (Or.inr ⟨rfl, c3⟩)]; simp
        · rw [if_neg c3, if_neg (by simp [c2, c3])]; simp
  rw [Finset.sum_congr rfl key, Finset.sum_add_distrib, Finset.sum_add_distrib, Finset.sum_ite_eq' (Finset.range (32 * v.n)), Finset.sum_ite_eq' (Finset.range (32 * v.n)),
    if_pos (Finset.mem_range.mpr (by omega)), if_pos (Finset.mem_range.mpr (by omega)),
    show 32 * v.n = 16 * v.n + 16 * v.n by omega, sum_cut]
  congr 2
  unfold T
  apply Finset.sum_congr rfl
  intro j _
  rw [Nat.zero_add, Nat.one_mul]

/-! The offsets -/
def yoffCheck (α N : Nat) (last : Bool) (tab : List U32) : Bool :=
  (List.range N).all fun i => decide ((tab.getD i 0).toNat < 257) && decide ((tab.getD i 0).toNat % 257 = (α ^ (i * (N - 1)) + if last then α ^ (i * (N - 3)) else 0) % 257)

theorem yoff_ok {α N : Nat} {last : Bool} {tab : List U32} (h : yoffCheck α N last tab = true) (i : Nat) (hi : i < N) :
    Nr 256 (tab.getD i 0) ((α : F) ^ (i * (N - 1)) + if last then (α : F) ^ (i * (N - 3)) else 0) := by
  unfold yoffCheck at h
  rw [List.all_eq_true] at h
  have := h i (List.mem_range.mpr hi)
  rw [Bool.and_eq_true, decide_eq_true_eq, decide_eq_true_eq] at this
  obtain ⟨h1, h2⟩ := this
  have e : (tab.getD i 0).toInt = ((tab.getD i 0).toNat : Int) := by
    rw [BitVec.toInt_eq_toNat_cond, if_pos (by simp only [Nat.reducePow] at *; omega)]
  refine ⟨by omega, by omega, ?_⟩
  rw [e, Int.cast_natCast, ← ZMod.natCast_mod, h2, ZMod.natCast_mod]
  cases last <;> push_cast <;> simp

theorem yoffN256_ok : yoffCheck 139 128 false yoffN256 = true := by decide +kernel
theorem yoffF256_ok : yoffCheck 139 128 true yoffF256 = true := by decide +kernel
theorem yoffN512_ok : yoffCheck 41 256 false yoffN512 = true := by decide +kernel
theorem yoffF512_ok : yoffCheck 41 256 true yoffF512 = true := by decide +kernel

/-- What is needed of a configuration. -/
structure CfgOk (c : Cfg) (v : Spec.SIMD.Variant) : Prop where
  n : c.n = v.n
  n4 : 4 ≤ v.n
  ntt : ∃ e, (v.α : F) = 41 ^ e ∧ ∀ x, ∀ i < 32 * v.n, Nr 1520000 ((c.ntt x).getD i 0) (T x 0 1 (16 * v.n) e i)
  yN : yoffCheck v.α (32 * v.n) false c.yoffN = true
  yF : yoffCheck v.α (32 * v.n) true c.yoffF = true

theorem q_spec {c : Cfg} {v : Spec.SIMD.Variant} (h : CfgOk c v) (x : Bytes) (last : Bool) (i : Nat) (hi : i < 32 * v.n) :
    (reduce ((c.ntt x).getD i 0 + (if last then c.yoffF else c.yoffN).getD i 0)).toInt = Spec.SIMD.lift (Spec.SIMD.y v last x i) := by
  obtain ⟨e, ha, hq⟩ := h.ntt
  have h1 := hq x i hi
  have h2 : Nr 256 ((if last then c.yoffF else c.yoffN).getD i 0) ((v.α : F) ^ (i * (32 * v.n - 1)) + if last then (v.α : F) ^ (i * (32 * v.n - 3)) else 0) := by
    cases last
    · exact yoff_ok h.yN i hi
    · exact yoff_ok h.yF i hi
  obtain ⟨r1, r2, r3⟩ := reduce_spec (h1.add h2 (by omega)) (by omega)
  apply lift_eq _ _ (y_lt _ _ _ _) r1 r2
  rw [r3, y_cast v last x i e h.n4 ha, add_assoc]

theorem ofInt_low (z : Int) : (BitVec.ofInt 32 z).setWidth 16 = BitVec.ofInt 16 z := by
  apply BitVec.eq_of_toNat_eq
  rw [BitVec.toNat_setWidth, BitVec.toNat_ofInt, BitVec.toNat_ofInt]
  simp only [Nat.reducePow]
  omega

theorem inner_bits (x y : U32) : (x &&& 0xFFFF#32) + (y <<< 16) = (y.setWidth 16 ++ x.setWidth 16 : BitVec 32) := by
  rw [BitVec.add_eq_or_of_and_eq_zero]
  · apply BitVec.eq_of_getLsbD_eq
    intro i hi
    rw [BitVec.getLsbD_append]
    interval_cases i <;> simp
  · apply BitVec.eq_of_getLsbD_eq
    intro i hi
    interval_cases i <;> simp

theorem INNER_eq (l h mm : I32) (c : Int) (a b : Nat) (hm : mm = BitVec.ofInt 32 c) (hl : l.toInt = Spec.SIMD.lift a) (hh : h.toInt = Spec.SIMD.lift b) :
    INNER l h mm = Spec.SIMD.inner c a b := by
  have e : ∀ (w : I32) (k : Nat), w.toInt = Spec.SIMD.lift k → (w * mm).setWidth 16 = BitVec.ofInt 16 (c * Spec.SIMD.lift k) := by
    intro w k hw
    rw [← ofInt_low, hm, ← hw, BitVec.ofInt_mul, BitVec.ofInt_toInt, BitVec.mul_comm]
  unfold INNER Spec.SIMD.inner
  rw [inner_bits, e l a hl, e h b hh]

end Verif.SIMD
