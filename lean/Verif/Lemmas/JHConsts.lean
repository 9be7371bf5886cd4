import Verif.Spec.JH
/-
The round constants of JH in four parts, to keep kernel computations small.
-/
namespace Verif.JH
open Spec.JH

/-- The state after n rounds with zero constants. -/
def after : Nat → List Nib → List Nib
  | 0, a => a
  | n + 1, a => after n (round 6 [] a)

theorem constsFrom_add (m n : Nat) : ∀ a, constsFrom (m + n) a = constsFrom m a ++ constsFrom n (after m a) := by
  induction m with
  | zero => intro a; rw [Nat.zero_add]; rfl
  | succ m ih => intro a; rw [Nat.add_right_comm, constsFrom, constsFrom, ih, List.cons_append]; rfl

def st11 : List Nib := nibs6 (hex "43af1c76126714dfa950c368787c81ae3beecf956c85c962086ae16e40ebb0b4")
def st22 : List Nib := nibs6 (hex "0ea17cafb8286131bda9e3757b3610aa3f77a6d0575053fc926eea7e237df289")
def st33 : List Nib := nibs6 (hex "a8e4ede4c5fe5e88d4fb192e0a0821e935ba145bbfc59c2508282755a5df53a5")

set_option maxRecDepth 100000
theorem after11 : after 11 C0 = st11 := by decide +kernel
theorem after22 : after 11 st11 = st22 := by decide +kernel
theorem after33 : after 11 st22 = st33 := by decide +kernel

theorem consts_parts : consts = constsFrom 11 C0 ++ (constsFrom 11 st11 ++ (constsFrom 11 st22 ++ constsFrom 9 st33)) := by
  unfold consts
  rw [show 42 = 11 + (11 + (11 + 9)) from rfl, constsFrom_add, constsFrom_add, constsFrom_add, after11, after22, after33]

end Verif.JH
