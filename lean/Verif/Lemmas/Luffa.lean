import Verif.Model.Luffa
import Verif.Spec.Luffa
/-
The block functions of package luffa compute the rounds of Luffa.
-/
namespace Verif.Luffa
open Spec.Luffa (g subCrumb minterm mixWord step)

def toL (v : R8) : List U32 := [v.v0, v.v1, v.v2, v.v3, v.v4, v.v5, v.v6, v.v7]
def abs (d : List R8) : List (List U32) := d.map toL

/-! The S-box in bit slices -/
def sub (a b c d : U32) : U32 × U32 × U32 × U32 :=
  let tmp := a; let a := a ||| b; let c := c ^^^ d; let b := ~~~b; let a := a ^^^ d; let d := d &&& tmp; let b := b ^^^ d; let d := d ^^^ c; let c := c &&& a
  let a := ~~~a; let c := c ^^^ b; let b := b ||| d; let tmp := tmp ^^^ b; let d := d ^^^ c; let c := c &&& b; let b := b ^^^ a; let a := tmp
  (a, b, c, d)

theorem sub_bit (a b c d : U32) (k : Nat) (hk : k < 4) (i : Nat) (hi : i < 32) :
    ([(sub a b c d).1, (sub a b c d).2.1, (sub a b c d).2.2.1, (sub a b c d).2.2.2].getD k 0).getLsbD i = (g (subCrumb [a, b, c, d]) k).getLsbD i := by
  have ho : (4294967295#32).getLsbD i = true := by
    rw [show (4294967295#32) = BitVec.allOnes 32 from rfl, BitVec.getLsbD_allOnes]; simpa using hi
  obtain rfl | rfl | rfl | rfl : k = 0 ∨ k = 1 ∨ k = 2 ∨ k = 3 := by omega
  all_goals
    simp [sub, subCrumb, g, minterm, Spec.Luffa.S, List.range, List.range.loop, Nat.testBit, -BitVec.getLsbD_eq_getElem, hi, ho]
    generalize a.getLsbD i = x
    generalize b.getLsbD i = y
    generalize c.getLsbD i = z
    generalize d.getLsbD i = t
    revert x y z t
    decide

theorem subCrumb_eq (a b c d : U32) : subCrumb [a, b, c, d] = [(sub a b c d).1, (sub a b c d).2.1, (sub a b c d).2.2.1, (sub a b c d).2.2.2] := by
  have h : ∀ k, k < 4 → [(sub a b c d).1, (sub a b c d).2.1, (sub a b c d).2.2.1, (sub a b c d).2.2.2].getD k 0 = g (subCrumb [a, b, c, d]) k := by
    intro k hk
    apply BitVec.eq_of_getLsbD_eq
    intro i hi
    exact sub_bit a b c d k hk i hi
  have h0 := h 0 (by omega)
  have h1 := h 1 (by omega)
  have h2 := h 2 (by omega)
  have h3 := h 3 (by omega)
  generalize hs : subCrumb [a, b, c, d] = l at *
  have hl : l.length = 4 := by rw [← hs]; rfl
  match l, hl with
  | [p, q, r, s], _ =>
    have e0 : (sub a b c d).1 = p := h0
    have e1 : (sub a b c d).2.1 = q := h1
    have e2 : (sub a b c d).2.2.1 = r := h2
    have e3 : (sub a b c d).2.2.2 = s := h3
    rw [e0, e1, e2, e3]

theorem body_eq (c0 c4 : U32) (v : R8) : toL (body256_0 c0 c4 v) = step c0 c4 (toL v) := by
  unfold step
  dsimp only
  rw [show [g (toL v) 0, g (toL v) 1, g (toL v) 2, g (toL v) 3] = [v.v0, v.v1, v.v2, v.v3] from rfl,
    show [g (toL v) 5, g (toL v) 6, g (toL v) 7, g (toL v) 4] = [v.v5, v.v6, v.v7, v.v4] from rfl, subCrumb_eq, subCrumb_eq]
  rfl

theorem body_all : body256_1 = body256_0 ∧ body256_2 = body256_0 ∧ body384_0 = body256_0 ∧ body384_1 = body256_0 ∧ body384_2 = body256_0 ∧ body384_3 = body256_0 ∧
    body512_0 = body256_0 ∧ body512_1 = body256_0 ∧ body512_2 = body256_0 ∧ body512_3 = body256_0 ∧ body512_4 = body256_0 :=
  ⟨rfl, rfl, rfl, rfl, rfl, rfl, rfl, rfl, rfl, rfl, rfl⟩

theorem rc_eq : ∀ r, r < 8 →
    RC00_256.getD r 0 = Spec.Luffa.c0 0 r ∧ RC04_256.getD r 0 = Spec.Luffa.c4 0 r ∧ RC10_256.getD r 0 = Spec.Luffa.c0 1 r ∧ RC14_256.getD r 0 = Spec.Luffa.c4 1 r ∧
    RC20_256.getD r 0 = Spec.Luffa.c0 2 r ∧ RC24_256.getD r 0 = Spec.Luffa.c4 2 r ∧
    RC00_384.getD r 0 = Spec.Luffa.c0 0 r ∧ RC04_384.getD r 0 = Spec.Luffa.c4 0 r ∧ RC10_384.getD r 0 = Spec.Luffa.c0 1 r ∧ RC14_384.getD r 0 = Spec.Luffa.c4 1 r ∧
    RC20_384.getD r 0 = Spec.Luffa.c0 2 r ∧ RC24_384.getD r 0 = Spec.Luffa.c4 2 r ∧ RC30_384.getD r 0 = Spec.Luffa.c0 3 r ∧ RC34_384.getD r 0 = Spec.Luffa.c4 3 r ∧
    RC00_512.getD r 0 = Spec.Luffa.c0 0 r ∧ RC04_512.getD r 0 = Spec.Luffa.c4 0 r ∧ RC10_512.getD r 0 = Spec.Luffa.c0 1 r ∧ RC14_512.getD r 0 = Spec.Luffa.c4 1 r ∧
    RC20_512.getD r 0 = Spec.Luffa.c0 2 r ∧ RC24_512.getD r 0 = Spec.Luffa.c4 2 r ∧ RC30_512.getD r 0 = Spec.Luffa.c0 3 r ∧ RC34_512.getD r 0 = Spec.Luffa.c4 3 r ∧
    RC40_512.getD r 0 = Spec.Luffa.c0 4 r ∧ RC44_512.getD r 0 = Spec.Luffa.c4 4 r := by decide +kernel

theorem perm_eq (j : Nat) (r0 r4 : List U32) (h : ∀ r, r < 8 → r0.getD r 0 = Spec.Luffa.c0 j r ∧ r4.getD r 0 = Spec.Luffa.c4 j r) (v : R8) :
    toL (forLoop 0 8 (fun v r => body256_0 (r0.getD r 0) (r4.getD r 0) v) v) = Spec.Luffa.Q j (toL v) := by
  have hh : ∀ n, n ≤ 8 → toL ((List.range n).foldl (fun v r => body256_0 (r0.getD r 0) (r4.getD r 0) v) v) =
      (List.range n).foldl (fun a r => step (Spec.Luffa.c0 j r) (Spec.Luffa.c4 j r) a) (toL v) := by
    intro n
    induction n with
    | zero => intro _; rfl
    | succ n ih =>
      intro hn
      rw [List.range_succ, List.foldl_append, List.foldl_append, ← ih (by omega)]
      show toL (body256_0 _ _ _) = step _ _ _
      rw [body_eq, (h n (by omega)).1, (h n (by omega)).2]
  exact hh 8 (Nat.le_refl _)

/-! Message injection -/
open Spec.Luffa (xor8 mul2 pow2 total at' layer up down tweak)

theorem g_xor8 (a b : List U32) (i : Nat) (hi : i < 8) : g (xor8 a b) i = g a i ^^^ g b i := by
  unfold xor8
  rw [show g ((List.range 8).map fun i => g a i ^^^ g b i) i = ((List.range 8).map fun i => g a i ^^^ g b i).getD i 0 from rfl,
    List.getD_eq_getElem?_getD, List.getElem?_map, List.getElem?_range hi]; rfl
theorem xor8_comm (a b : List U32) : xor8 a b = xor8 b a := List.map_congr_left fun i _ => BitVec.xor_comm _ _
theorem xor8_assoc (a b c : List U32) : xor8 (xor8 a b) c = xor8 a (xor8 b c) := List.map_congr_left fun i hi => by
  have := List.mem_range.mp hi
  rw [g_xor8 _ _ _ this, g_xor8 _ _ _ this, BitVec.xor_assoc]

theorem total4 (a b c d : List U32) : total [a, b, c, d] = xor8 (xor8 a b) (xor8 c d) := xor8_assoc _ _ _
theorem total5 (a b c d e : List U32) : total [a, b, c, d, e] = xor8 (xor8 (xor8 a b) (xor8 c d)) e := by
  rw [← total4]; rfl

theorem tweak_zero (a : List U32) (h : a.length = 8) : tweak 0 a = a := by
  match a, h with
  | [a, b, c, d, e, f, x, y], _ =>
    show [a, b, c, d, e.rotateLeft 0, f.rotateLeft 0, x.rotateLeft 0, y.rotateLeft 0] = _
    simp [BitVec.rotateLeft_def, BitVec.ushiftRight_eq_zero]

theorem mi256_eq (a b c M : R8) (X : List (List U32)) (hX : Spec.Luffa.mi 3 (abs [a, b, c]) (toL M) = X) :
    abs (mi256 [a, b, c] M) = [at' X 0, tweak 1 (at' X 1), tweak 2 (at' X 2)] := by
  subst hX
  rfl

theorem mi4 (V : List (List U32)) (M : List U32) (a b c d : List U32) (hV : V = [a, b, c, d]) :
    Spec.Luffa.mi 4 V M =
      let s := mul2 (xor8 (xor8 a b) (xor8 c d))
      let X := [xor8 s a, xor8 s b, xor8 s c, xor8 s d]
      let Y := down 4 X
      [xor8 (at' Y 0) M, xor8 (at' Y 1) (mul2 M), xor8 (at' Y 2) (mul2 (mul2 M)), xor8 (at' Y 3) (mul2 (mul2 (mul2 M)))] := by
  subst hV
  unfold Spec.Luffa.mi layer
  rw [total4]
  dsimp only
  rw [xor8_comm (at' _ 0) M, xor8_comm (at' _ 1) (mul2 M), xor8_comm (at' _ 2), xor8_comm (at' _ 3)]
  rfl

theorem mi5 (V : List (List U32)) (M : List U32) (a b c d e : List U32) (hV : V = [a, b, c, d, e]) :
    Spec.Luffa.mi 5 V M =
      let s := mul2 (xor8 (xor8 (xor8 a b) (xor8 c d)) e)
      let X := [xor8 s a, xor8 s b, xor8 s c, xor8 s d, xor8 s e]
      let Y := down 5 (up 5 X)
      [xor8 (at' Y 0) M, xor8 (at' Y 1) (mul2 M), xor8 (at' Y 2) (mul2 (mul2 M)), xor8 (at' Y 3) (mul2 (mul2 (mul2 M))), xor8 (at' Y 4) (mul2 (mul2 (mul2 (mul2 M))))] := by
  subst hV
  unfold Spec.Luffa.mi layer
  rw [total5]
  dsimp only
  rw [xor8_comm (at' _ 0) M, xor8_comm (at' _ 1) (mul2 M), xor8_comm (at' _ 2), xor8_comm (at' _ 3), xor8_comm (at' _ 4)]
  rfl

theorem mi384_eq (a b c d M : R8) (X : List (List U32)) (hX : Spec.Luffa.mi 4 (abs [a, b, c, d]) (toL M) = X) :
    abs (mi384 [a, b, c, d] M) = [at' X 0, tweak 1 (at' X 1), tweak 2 (at' X 2), tweak 3 (at' X 3)] := by
  rw [mi4 (abs [a, b, c, d]) _ (toL a) (toL b) (toL c) (toL d) rfl] at hX
  subst hX
  rfl

theorem mi512_eq (a b c d e M : R8) (X : List (List U32)) (hX : Spec.Luffa.mi 5 (abs [a, b, c, d, e]) (toL M) = X) :
    abs (mi512 [a, b, c, d, e] M) = [at' X 0, tweak 1 (at' X 1), tweak 2 (at' X 2), tweak 3 (at' X 3), tweak 4 (at' X 4)] := by
  rw [mi5 (abs [a, b, c, d, e]) _ (toL a) (toL b) (toL c) (toL d) (toL e) rfl] at hX
  subst hX
  rfl

theorem at_length (w : Nat) (V : List (List U32)) (M : List U32) (j : Nat) (hj : j < w) : (at' (Spec.Luffa.mi w V M) j).length = 8 := by
  unfold Spec.Luffa.mi at'
  rw [List.getD_eq_getElem?_getD, List.getElem?_map, List.getElem?_range hj]
  simp [xor8]

theorem abs_reg (d : List R8) (l : List (List U32)) (h : abs d = l) (j : Nat) (hj : j < l.length) : toL (reg d j) = at' l j := by
  subst h
  have hl : j < d.length := by simpa [abs] using hj
  unfold reg at' abs
  rw [List.getD_eq_getElem?_getD, List.getD_eq_getElem?_getD, List.getElem?_map, List.getElem?_eq_getElem hl]; rfl

theorem block256_eq (d : List R8) (hd : d.length = 3) (M : R8) : abs (block256 d M) = Spec.Luffa.round 3 (abs d) (toL M) := by
  match d, hd with
  | [a, b, c], _ =>
    have hm := mi256_eq a b c M _ rfl
    have hl := at_length 3 (abs [a, b, c]) (toL M) 0 (by omega)
    unfold block256 Spec.Luffa.round
    dsimp only
    rw [body_all.1, body_all.2.1]
    generalize Spec.Luffa.mi 3 (abs [a, b, c]) (toL M) = X at *
    rw [← tweak_zero _ hl] at hm
    generalize mi256 [a, b, c] M = d at *
    show [toL _, toL _, toL _] = [Spec.Luffa.Q 0 _, Spec.Luffa.Q 1 _, Spec.Luffa.Q 2 _]
    rw [perm_eq 0 _ _ (fun r hr => ⟨(rc_eq r hr).1, (rc_eq r hr).2.1⟩), perm_eq 1 _ _ (fun r hr => ⟨(rc_eq r hr).2.2.1, (rc_eq r hr).2.2.2.1⟩),
      perm_eq 2 _ _ (fun r hr => ⟨(rc_eq r hr).2.2.2.2.1, (rc_eq r hr).2.2.2.2.2.1⟩),
      abs_reg d _ hm 0 (by simp), abs_reg d _ hm 1 (by simp), abs_reg d _ hm 2 (by simp)]
    rfl

theorem block384_eq (d : List R8) (hd : d.length = 4) (M : R8) : abs (block384 d M) = Spec.Luffa.round 4 (abs d) (toL M) := by
  match d, hd with
  | [a, b, c, e], _ =>
    have hm := mi384_eq a b c e M _ rfl
    have hl := at_length 4 (abs [a, b, c, e]) (toL M) 0 (by omega)
    unfold block384 Spec.Luffa.round
    dsimp only
    rw [body_all.2.2.1, body_all.2.2.2.1, body_all.2.2.2.2.1, body_all.2.2.2.2.2.1]
    generalize Spec.Luffa.mi 4 (abs [a, b, c, e]) (toL M) = X at *
    rw [← tweak_zero _ hl] at hm
    generalize mi384 [a, b, c, e] M = d at *
    show [toL _, toL _, toL _, toL _] = [Spec.Luffa.Q 0 _, Spec.Luffa.Q 1 _, Spec.Luffa.Q 2 _, Spec.Luffa.Q 3 _]
    rw [perm_eq 0 _ _ (fun r hr => ⟨(rc_eq r hr).2.2.2.2.2.2.1, (rc_eq r hr).2.2.2.2.2.2.2.1⟩), perm_eq 1 _ _ (fun r hr => ⟨(rc_eq r hr).2.2.2.2.2.2.2.2.1, (rc_eq r hr).2.2.2.2.2.2.2.2.2.1⟩),
      perm_eq 2 _ _ (fun r hr => ⟨(rc_eq r hr).2.2.2.2.2.2.2.2.2.2.1, (rc_eq r hr).2.2.2.2.2.2.2.2.2.2.2.1⟩), perm_eq 3 _ _ (fun r hr => ⟨(rc_eq r hr).2.2.2.2.2.2.2.2.2.2.2.2.1, (rc_eq r hr).2.2.2.2.2.2.2.2.2.2.2.2.2.1⟩),
      abs_reg d _ hm 0 (by simp), abs_reg d _ hm 1 (by simp), abs_reg d _ hm 2 (by simp), abs_reg d _ hm 3 (by simp)]
    rfl

theorem block512_eq (d : List R8) (hd : d.length = 5) (M : R8) : abs (block512 d M) = Spec.Luffa.round 5 (abs d) (toL M) := by
  match d, hd with
  | [a, b, c, e, f], _ =>
    have hm := mi512_eq a b c e f M _ rfl
    have hl := at_length 5 (abs [a, b, c, e, f]) (toL M) 0 (by omega)
    unfold block512 Spec.Luffa.round
    dsimp only
    rw [body_all.2.2.2.2.2.2.1, body_all.2.2.2.2.2.2.2.1, body_all.2.2.2.2.2.2.2.2.1, body_all.2.2.2.2.2.2.2.2.2.1, body_all.2.2.2.2.2.2.2.2.2.2]
    generalize Spec.Luffa.mi 5 (abs [a, b, c, e, f]) (toL M) = X at *
    rw [← tweak_zero _ hl] at hm
    generalize mi512 [a, b, c, e, f] M = d at *
    show [toL _, toL _, toL _, toL _, toL _] = [Spec.Luffa.Q 0 _, Spec.Luffa.Q 1 _, Spec.Luffa.Q 2 _, Spec.Luffa.Q 3 _, Spec.Luffa.Q 4 _]
    rw [perm_eq 0 _ _ (fun r hr => ⟨(rc_eq r hr).2.2.2.2.2.2.2.2.2.2.2.2.2.2.1, (rc_eq r hr).2.2.2.2.2.2.2.2.2.2.2.2.2.2.2.1⟩), perm_eq 1 _ _ (fun r hr => ⟨(rc_eq r hr).2.2.2.2.2.2.2.2.2.2.2.2.2.2.2.2.1, (rc_eq r hr).2.2.2.2.2.2.2.2.2.2.2.2.2.2.2.2.2.1⟩),
      perm_eq 2 _ _ (fun r hr => ⟨(rc_eq r hr).2.2.2.2.2.2.2.2.2.2.2.2.2.2.2.2.2.2.1, (rc_eq r hr).2.2.2.2.2.2.2.2.2.2.2.2.2.2.2.2.2.2.2.1⟩), perm_eq 3 _ _ (fun r hr => ⟨(rc_eq r hr).2.2.2.2.2.2.2.2.2.2.2.2.2.2.2.2.2.2.2.2.1, (rc_eq r hr).2.2.2.2.2.2.2.2.2.2.2.2.2.2.2.2.2.2.2.2.2.1⟩),
      perm_eq 4 _ _ (fun r hr => ⟨(rc_eq r hr).2.2.2.2.2.2.2.2.2.2.2.2.2.2.2.2.2.2.2.2.2.2.1, (rc_eq r hr).2.2.2.2.2.2.2.2.2.2.2.2.2.2.2.2.2.2.2.2.2.2.2⟩),
      abs_reg d _ hm 0 (by simp), abs_reg d _ hm 1 (by simp), abs_reg d _ hm 2 (by simp), abs_reg d _ hm 3 (by simp), abs_reg d _ hm 4 (by simp)]
    rfl
end Verif.Luffa
