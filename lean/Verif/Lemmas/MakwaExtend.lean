import Verif.Lemmas.MakwaRecover
/-
Extend of package makwa.
-/
namespace Verif.Makwa
open Verif.Spec (beNat beBytes)

/-- math/big never writes a leading zero. -/
theorem bytes_head (x : Nat) : (Big.bytes x).head? ≠ some 0#8 := by
  induction x using Nat.strong_induction_on with
  | _ x ih =>
    by_cases h0 : x = 0
    · subst h0; rw [Big.bytes_zero]; simp
    · rw [Big.bytes_pos x h0]
      by_cases hd : x / 256 = 0
      · rw [hd, Big.bytes_zero, List.nil_append, List.head?_cons]
        intro hc
        injection hc with hc
        have := congrArg BitVec.toNat hc
        simp only [BitVec.toNat_ofNat, Nat.zero_mod] at this
        omega
      · have hne : Big.bytes (x / 256) ≠ [] := by
          rw [Big.bytes_pos _ hd]; simp
        rw [List.head?_append_of_ne_nil _ hne]
        exact ih _ (by omega)

/-- The minimal bytes are the fixed-width bytes exactly when those do not start with zero. -/
theorem bytes_eq_beBytes (n x : Nat) (hn : 0 < n) (h : x < 256 ^ n) : Big.bytes x = beBytes n x ↔ (beBytes n x).head? ≠ some 0#8 := by
  constructor
  · intro e; rw [← e]; exact bytes_head x
  · intro hh
    have hp := Big.pad_bytes n x h
    rw [← hp] at hh ⊢
    cases hk : n - (Big.bytes x).length with
    | zero => simp [zeros]
    | succ k => rw [hk] at hh; exact absurd (by rfl) hh

end Verif.Makwa
