import Verif.Spec.GFBlock
import Verif.Lazy
import Verif.SetLoop
import Verif.Words
/-
Big-endian numbers, doubling, and cutting a message into blocks.
-/
namespace Verif.Spec

theorem beNat_foldl (l : Bytes) : ∀ a, l.foldl (fun a x => a * 256 + x.toNat) a = a * 256 ^ l.length + beNat l := by
  induction l with
  | nil => intro a; simp [beNat]
  | cons x xs ih =>
    intro a
    show xs.foldl _ (a * 256 + x.toNat) = _
    have e : beNat (x :: xs) = x.toNat * 256 ^ xs.length + beNat xs := by
      show xs.foldl _ (0 * 256 + x.toNat) = _
      rw [ih, Nat.zero_mul, Nat.zero_add]
    rw [ih, e, List.length_cons, Nat.pow_succ]
    rw [Nat.add_mul, Nat.mul_assoc, Nat.mul_comm 256]
    omega
theorem beNat_cons (x : Byte) (xs : Bytes) : beNat (x :: xs) = x.toNat * 256 ^ xs.length + beNat xs := by
  unfold beNat
  rw [List.foldl_cons, beNat_foldl, Nat.zero_mul, Nat.zero_add]; rfl
theorem beNat_snoc (xs : Bytes) (x : Byte) : beNat (xs ++ [x]) = beNat xs * 256 + x.toNat := by
  unfold beNat; rw [List.foldl_append]; rfl
theorem beNat_lt (l : Bytes) : beNat l < 256 ^ l.length := by
  induction l with
  | nil => simp [beNat]
  | cons x xs ih =>
    rw [beNat_cons, List.length_cons, Nat.pow_succ]
    have := x.isLt
    have h2 : x.toNat * 256 ^ xs.length ≤ 255 * 256 ^ xs.length := Nat.mul_le_mul_right _ (by omega)
    omega

theorem beBytes_length (n x : Nat) : (beBytes n x).length = n := by unfold beBytes; simp
theorem beBytes_beNat (l : Bytes) : beBytes l.length (beNat l) = l := by
  induction l with
  | nil => rfl
  | cons x xs ih =>
    have hx := beNat_lt xs
    have hp : 0 < 256 ^ xs.length := Nat.pow_pos (by omega)
    unfold beBytes at ih ⊢
    rw [List.length_cons, List.range_succ_eq_map, List.map_cons, List.map_map]
    refine List.cons_eq_cons.mpr ⟨?_, ?_⟩
    · rw [show xs.length + 1 - 1 - 0 = xs.length by omega, beNat_cons, Nat.mul_comm, Nat.mul_add_div hp, Nat.div_eq_of_lt hx, Nat.add_zero]
      simp
    · refine Eq.trans ?_ ih
      refine List.map_congr_left fun i hi => ?_
      rw [List.mem_range] at hi
      show BitVec.ofNat 8 _ = BitVec.ofNat 8 _
      rw [show xs.length + 1 - 1 - (i + 1) = xs.length - 1 - i by omega, beNat_cons]
      have e : 256 ^ xs.length = 256 ^ (xs.length - 1 - i) * (256 * 256 ^ i) := by
        rw [← Nat.pow_succ', ← Nat.pow_add]; congr 1; omega
      rw [e, ← Nat.mul_assoc, Nat.mul_comm x.toNat, Nat.mul_assoc, Nat.mul_add_div (Nat.pow_pos (by omega))]
      apply BitVec.eq_of_toNat_eq
      rw [BitVec.toNat_ofNat, BitVec.toNat_ofNat]
      have : x.toNat * (256 * 256 ^ i) = 256 * (x.toNat * 256 ^ i) := by
        rw [← Nat.mul_assoc, Nat.mul_comm x.toNat, Nat.mul_assoc]
      rw [this]
      show (256 * _ + _) % 256 = _
      rw [Nat.mul_add_mod]
theorem beNat_inj {a b : Bytes} (hl : a.length = b.length) (h : beNat a = beNat b) : a = b := by
  rw [← beBytes_beNat a, ← beBytes_beNat b, hl, h]
theorem eq_beBytes {a : Bytes} {n x : Nat} (hl : a.length = n) (h : beNat a = x) : a = beBytes n x := by
  subst hl; subst h; exact (beBytes_beNat a).symm

theorem beNat_set_last (l : Bytes) (hl : 0 < l.length) (p : Byte) :
    beNat (l.set (l.length - 1) (at8 l (l.length - 1) ^^^ p)) = beNat l ^^^ p.toNat := by
  obtain ⟨u, x, rfl⟩ : ∃ u x, l = u ++ [x] := ⟨l.dropLast, l.getLast (List.length_pos_iff.mp hl), (List.dropLast_concat_getLast _).symm⟩
  have e1 : (u ++ [x]).length - 1 = u.length := by simp
  rw [e1, List.set_append_right _ _ (Nat.le_refl _), Nat.sub_self, at8_append_right _ _ _ (Nat.le_refl _), Nat.sub_self]
  show beNat (u ++ [x ^^^ p]) = _
  rw [beNat_snoc, beNat_snoc, BitVec.toNat_xor]
  apply Nat.eq_of_testBit_eq
  intro i
  rw [Nat.testBit_xor, Nat.mul_comm, Nat.testBit_two_pow_mul_add (i := 8) _ (Nat.xor_lt_two_pow x.isLt p.isLt), Nat.testBit_two_pow_mul_add (i := 8) _ x.isLt]
  split
  · rw [Nat.testBit_xor]
  · rw [Nat.testBit_lt_two_pow (x := p.toNat) (i := i) (Nat.lt_of_lt_of_le p.isLt (Nat.pow_le_pow_right (by omega) (by omega)))]
    rw [Bool.xor_false]

theorem bxor_length {a b : Bytes} (h : a.length = b.length) : (bxor a b).length = a.length := by
  unfold bxor; rw [List.length_zipWith, h, Nat.min_self]

theorem at8_bxor {a b : Bytes} (i : Nat) (h1 : i < a.length) (h2 : i < b.length) : at8 (bxor a b) i = at8 a i ^^^ at8 b i :=
  at8_zipWith _ _ _ _ h1 h2

theorem bxor_comm (a b : Bytes) : bxor a b = bxor b a := by
  unfold bxor; rw [List.zipWith_comm_of_comm (fun a b => BitVec.xor_comm a b)]

theorem bxor_assoc (a b c : Bytes) : bxor (bxor a b) c = bxor a (bxor b c) := by
  unfold bxor
  induction a generalizing b c with
  | nil => simp
  | cons x xs ih =>
    cases b <;> cases c <;> simp
    exact ⟨BitVec.xor_assoc _ _ _, ih _ _⟩

theorem bxor_zeros (a : Bytes) : bxor a (zeros a.length) = a := by
  refine ext_at8 (by rw [bxor_length (by rw [zeros_length])]) fun i hi => ?_
  rw [bxor_length (by rw [zeros_length])] at hi
  rw [at8_bxor i hi (by rw [zeros_length]; exact hi), at8_zeros]
  simp

theorem cut_eq (n : Nat) (hn : 0 < n) (m : Bytes) : cut n m = (initBlocks n m, lastBlock n m) := by
  unfold cut initBlocks lastBlock fullBlocks
  have hle : (m.length - 1) / n * n ≤ m.length := by have := Nat.div_mul_le_self (m.length - 1) n; omega
  rw [List.length_take, Nat.min_eq_left hle, Nat.mul_div_cancel _ hn]
  refine congrArg (fun z => (z, _)) (List.map_congr_left fun i hi => ?_)
  rw [List.mem_range] at hi
  rw [List.drop_take, List.take_take, Nat.min_eq_left]
  have : (i + 1) * n ≤ (m.length - 1) / n * n := Nat.mul_le_mul_right _ hi
  rw [Nat.add_mul] at this; omega

end Verif.Spec
