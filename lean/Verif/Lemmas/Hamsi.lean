import Verif.Model.Hamsi
import Verif.Spec.Hamsi
import Mathlib.Data.List.Nodup
/-
The rounds of package hamsi compute the rounds of Hamsi.
-/
namespace Verif.Hamsi
open Spec.Hamsi (g sub4 minterm L app)

/-! The S-box in bit slices -/
def sb (a b c d : U32) : U32 × U32 × U32 × U32 :=
  let t := a; let a := a &&& c; let a := a ^^^ d; let c := c ^^^ b; let c := c ^^^ a; let d := d ||| t; let d := d ^^^ b; let t := t ^^^ c
  let b := d; let d := d ||| t; let d := d ^^^ a; let a := a &&& b; let t := t ^^^ a; let b := b ^^^ d; let b := b ^^^ t; let a := c; let c := b; let b := d
  let d := ~~~ t
  (a, b, c, d)

theorem sb_bit (a b c d : U32) (k : Nat) (hk : k < 4) (i : Nat) (hi : i < 32) :
    ([(sb a b c d).1, (sb a b c d).2.1, (sb a b c d).2.2.1, (sb a b c d).2.2.2].getD k 0).getLsbD i = (g (sub4 [a, b, c, d]) k).getLsbD i := by
  have ho : (4294967295#32).getLsbD i = true := by
    rw [show (4294967295#32) = BitVec.allOnes 32 from rfl, BitVec.getLsbD_allOnes]; simpa using hi
  obtain rfl | rfl | rfl | rfl : k = 0 ∨ k = 1 ∨ k = 2 ∨ k = 3 := by omega
  all_goals
    simp [sb, sub4, g, minterm, Spec.Hamsi.S, List.range, List.range.loop, Nat.testBit, -BitVec.getLsbD_eq_getElem, hi, ho]
    generalize a.getLsbD i = x
    generalize b.getLsbD i = y
    generalize c.getLsbD i = z
    generalize d.getLsbD i = t
    revert x y z t
    decide

theorem sub4_eq (a b c d : U32) : sub4 [a, b, c, d] = [(sb a b c d).1, (sb a b c d).2.1, (sb a b c d).2.2.1, (sb a b c d).2.2.2] := by
  have h : ∀ k, k < 4 → [(sb a b c d).1, (sb a b c d).2.1, (sb a b c d).2.2.1, (sb a b c d).2.2.2].getD k 0 = g (sub4 [a, b, c, d]) k := by
    intro k hk
    apply BitVec.eq_of_getLsbD_eq
    intro i hi
    exact sb_bit a b c d k hk i hi
  have h0 := h 0 (by omega)
  have h1 := h 1 (by omega)
  have h2 := h 2 (by omega)
  have h3 := h 3 (by omega)
  generalize hs : sub4 [a, b, c, d] = l at *
  have hl : l.length = 4 := by rw [← hs]; rfl
  match l, hl with
  | [p, q, r, s], _ =>
    have e0 : (sb a b c d).1 = p := h0
    have e1 : (sb a b c d).2.1 = q := h1
    have e2 : (sb a b c d).2.2.1 = r := h2
    have e3 : (sb a b c d).2.2.2 = s := h3
    rw [e0, e1, e2, e3]

/-! The programs are made of blocks -/
def sboxP (a b c d : Nat) : List Ins :=
  [.mov 32 a, .and a c, .xor a d, .xor c b, .xor c a, .or d 32, .xor d b, .xor 32 c, .mov b d, .or d 32, .xor d a, .and a b, .xor 32 a, .xor b d, .xor b 32,
    .mov a c, .mov c b, .mov b d, .not d 32]
def lP (a b c d : Nat) : List Ins :=
  [.rol a 13, .rol c 3, .xor2 b a c, .xors d c a 3, .rol b 1, .rol d 7, .xor2 a b d, .xors c d b 7, .rol a 5, .rol c 22]

def pick (σ : List Nat) (f : Nat → Nat → Nat → Nat → List Ins) (p : Nat × Nat × Nat × Nat) : List Ins :=
  f (σ.getD p.1 0) (σ.getD p.2.1 0) (σ.getD p.2.2.1 0) (σ.getD p.2.2.2 0)
def roundP (σ alpha : List Nat) (cols diags : List (Nat × Nat × Nat × Nat)) : List Ins :=
  ((List.range alpha.length).map fun i => if i = 1 then Ins.xkr (σ.getD i 0) (alpha.getD i 0) else Ins.xk (σ.getD i 0) (alpha.getD i 0)) ++
    cols.flatMap (pick σ sboxP) ++ diags.flatMap (pick σ lP)

def σ256 : List Nat := [0, 1, 16, 17, 18, 19, 2, 3, 4, 5, 20, 21, 22, 23, 6, 7]
def σ512 : List Nat := [0, 1, 16, 17, 2, 3, 18, 19, 20, 21, 4, 5, 22, 23, 6, 7, 8, 9, 24, 25, 10, 11, 26, 27, 28, 29, 12, 13, 30, 31, 14, 15]

def sm := Spec.Hamsi.small [] []
def lg := Spec.Hamsi.large [] []

theorem rounds256_eq : rounds256 = (List.range 3).map fun r => (r, roundP σ256 sm.alpha sm.cols sm.diags) := by decide +kernel
theorem final256_eq : final256 = roundP σ256 sm.alpha sm.cols sm.diags := by decide +kernel
theorem round512_eq : round512 = roundP σ512 lg.alpha lg.cols lg.diags := by decide +kernel
theorem final512_eq : final512 = roundP σ512 lg.alpha lg.cols lg.diags := by decide +kernel

theorem exec_append (al : List U32) (rc : Nat) (R : Regs) (p q : List Ins) : exec al rc R (p ++ q) = exec al rc (exec al rc R p) q := by
  simp [exec]

theorem upd_same (R : Regs) (a : Nat) (x : U32) : R.upd a x a = x := by simp [Regs.upd]
theorem upd_ne (R : Regs) (a : Nat) (x : U32) (r : Nat) (h : r ≠ a) : R.upd a x r = R r := by simp [Regs.upd, h]

/-- What a block has to do: the four registers get the values of f, the others (but 32) keep theirs. -/
def Acts (f : List U32 → List U32) (P : Nat → Nat → Nat → Nat → List Ins) : Prop :=
  ∀ (al : List U32) (rc : Nat) (R : Regs) (a b c d : Nat), [a, b, c, d, 32].Nodup →
    [exec al rc R (P a b c d) a, exec al rc R (P a b c d) b, exec al rc R (P a b c d) c, exec al rc R (P a b c d) d] = f [R a, R b, R c, R d] ∧
    ∀ r, r ≠ a → r ≠ b → r ≠ c → r ≠ d → r ≠ 32 → exec al rc R (P a b c d) r = R r

theorem acts_sbox : Acts sub4 sboxP := by
  intro al rc R a b c d hn
  simp only [List.nodup_cons, List.mem_cons, List.not_mem_nil, not_or, or_false] at hn
  obtain ⟨⟨h1, h2, h3, h4⟩, ⟨h5, h6, h7⟩, ⟨h8, h9⟩, h10, -⟩ := hn
  constructor
  · rw [sub4_eq]
    simp only [sboxP, exec, List.foldl_cons, List.foldl_nil, exec1, Regs.upd, if_true, if_false, h1, h2, h3, h4, h5, h6, h7, h8, h9, h10, Ne.symm h1, Ne.symm h2,
      Ne.symm h3, Ne.symm h4, Ne.symm h5, Ne.symm h6, Ne.symm h7, Ne.symm h8, Ne.symm h9, Ne.symm h10, sb]
  · intro r r1 r2 r3 r4 r5
    simp only [sboxP, exec, List.foldl_cons, List.foldl_nil, exec1, Regs.upd, if_false, r1, r2, r3, r4, r5]

theorem rol_eq (x : U32) (n : Nat) (h : n < 32) : (x <<< n) ||| (x >>> (32 - n)) = x.rotateLeft n := by
  rw [BitVec.rotateLeft_def, Nat.mod_eq_of_lt h]

theorem acts_l : Acts L lP := by
  intro al rc R a b c d hn
  simp only [List.nodup_cons, List.mem_cons, List.not_mem_nil, not_or, or_false] at hn
  obtain ⟨⟨h1, h2, h3, h4⟩, ⟨h5, h6, h7⟩, ⟨h8, h9⟩, h10, -⟩ := hn
  constructor
  · simp only [lP, exec, List.foldl_cons, List.foldl_nil, exec1, Regs.upd, if_true, if_false, h1, h2, h3, h4, h5, h6, h7, h8, h9, h10, Ne.symm h1, Ne.symm h2,
      Ne.symm h3, Ne.symm h4, Ne.symm h5, Ne.symm h6, Ne.symm h7, Ne.symm h8, Ne.symm h9, Ne.symm h10, L]
    rw [rol_eq _ 13 (by omega), rol_eq _ 3 (by omega), rol_eq _ 1 (by omega), rol_eq _ 7 (by omega), rol_eq _ 5 (by omega), rol_eq _ 22 (by omega)]
    simp only [g, List.getD_cons_zero, List.getD_cons_succ, BitVec.xor_assoc]
  · intro r r1 r2 r3 r4 r5
    simp only [lP, exec, List.foldl_cons, List.foldl_nil, exec1, Regs.upd, if_false, r1, r2, r3, r4]

end Verif.Hamsi
