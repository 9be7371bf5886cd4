import Verif.Lemmas.GFBlock
/-
math/big natural numbers as used by packages vmac and makwa: SetBytes is `Spec.beNat`; Bytes is below.
-/
namespace Verif.Big
open Verif.Spec

/-- `math/big.Int.Bytes`: the big-endian bytes without leading zeros (standard library, used e.g. at vmac/vmac.go:79, makwa/makwa.go). -/
def bytes (x : Nat) : Bytes := if h : x = 0 then [] else bytes (x / 256) ++ [BitVec.ofNat 8 x]
decreasing_by omega

theorem bytes_zero : bytes 0 = [] := by unfold bytes; rfl
theorem bytes_pos (x : Nat) (h : x ≠ 0) : bytes x = bytes (x / 256) ++ [BitVec.ofNat 8 x] := by rw [bytes, dif_neg h]

theorem beNat_bytes (x : Nat) : beNat (bytes x) = x := by
  induction x using Nat.strongRecOn with
  | ind x ih =>
    by_cases h : x = 0
    · subst h; rw [bytes_zero]; rfl
    · rw [bytes_pos x h, beNat_snoc, ih (x / 256) (by omega), BitVec.toNat_ofNat]; omega

theorem bytes_length_le (x n : Nat) (h : x < 256 ^ n) : (bytes x).length ≤ n := by
  induction n generalizing x with
  | zero => have : x = 0 := by simp at h; exact h
            subst this; rw [bytes_zero]; exact Nat.le_refl 0
  | succ n ih =>
    by_cases h0 : x = 0
    · subst h0; rw [bytes_zero]; exact Nat.zero_le _
    · rw [bytes_pos x h0, List.length_append]
      have := ih (x / 256) (by rw [Nat.pow_succ] at h; exact Nat.div_lt_of_lt_mul (by rw [Nat.mul_comm]; exact h))
      simp only [List.length_singleton]; omega

theorem beNat_zeros_append (k : Nat) (b : Bytes) : beNat (zeros k ++ b) = beNat b := by
  induction k with
  | zero => rfl
  | succ k ih =>
    have : zeros (k + 1) ++ b = 0#8 :: (zeros k ++ b) := rfl
    rw [this, beNat_cons, ih]; simp

/-- The idiom `Y := make([]byte, n); copy(Y[n-len(y.Bytes()):], y.Bytes())` (vmac/vmac.go:185-187, utils.go:26-28). -/
def fill (n x : Nat) : Bytes := goCopy (zeros n) (n - (bytes x).length) (bytes x)

theorem pad_bytes (n x : Nat) (h : x < 256 ^ n) : zeros (n - (bytes x).length) ++ bytes x = beBytes n x := by
  have := bytes_length_le x n h
  refine eq_beBytes ?_ ?_
  · rw [List.length_append, zeros_length]; omega
  · rw [beNat_zeros_append, beNat_bytes]

theorem fill_eq (n x : Nat) (h : x < 256 ^ n) : fill n x = beBytes n x := by
  have hl := bytes_length_le x n h
  rw [← pad_bytes n x h]
  unfold fill goCopy
  rw [zeros_length, List.drop_eq_nil_of_le (by rw [zeros_length]; omega), List.append_nil]
  rw [List.take_of_length_le (l := bytes x) (by omega)]
  congr 1
  unfold zeros; rw [List.take_replicate, Nat.min_eq_left (by omega)]

theorem beNat_beBytes (n x : Nat) (h : x < 256 ^ n) : beNat (beBytes n x) = x := by
  rw [← pad_bytes n x h, beNat_zeros_append, beNat_bytes]

end Verif.Big
