import Mathlib.Tactic.IntervalCases
import Verif.Model.Bash
import Verif.Spec.Bash
import Verif.FnList
import Verif.Words
/-
bash-f.
-/
namespace Verif.Bash
open Spec.Bash (sub col perm rc)

theorem rothi_eq (x : U64) (y : Nat) (h : y < 64) (h0 : 0 < y) : BASH_ROTHI x y = x.rotateLeft y := by
  unfold BASH_ROTHI
  rw [if_pos ⟨h, h0⟩, BitVec.rotateLeft_def, Nat.mod_eq_of_lt h]

theorem sbox_eq (W0 W1 W2 : U64) (m1 n1 m2 n2 : Nat) (h1 : m1 < 64 ∧ 0 < m1) (h2 : n1 < 64 ∧ 0 < n1) (h3 : m2 < 64 ∧ 0 < m2) (h4 : n2 < 64 ∧ 0 < n2) :
    BASH_L3_S3 W0 W1 W2 m1 n1 m2 n2 = Spec.Bash.sbox m1 n1 m2 n2 (W0, W1, W2) := by
  unfold BASH_L3_S3 Spec.Bash.sbox
  dsimp only
  rw [rothi_eq _ _ h1.1 h1.2, rothi_eq _ _ h2.1 h2.2, rothi_eq _ _ h3.1 h3.2, rothi_eq _ _ h4.1 h4.2]
  have e : W0.rotateLeft m1 ^^^ (W1 ^^^ (W0 ^^^ W1 ^^^ W2).rotateLeft n1) = W1 ^^^ W0.rotateLeft m1 ^^^ (W0 ^^^ W1 ^^^ W2).rotateLeft n1 := by
    rw [← BitVec.xor_assoc, BitVec.xor_comm (W0.rotateLeft m1) W1]
  rw [e]

theorem rot_eq : ∀ v, v < 8 → ∀ k, k < 4 → (bash_rot.getD v []).getD k 0 = Spec.Bash.rot v k ∧ Spec.Bash.rot v k < 64 ∧ 0 < Spec.Bash.rot v k := by decide

theorem rc_eq : ∀ r, r < 24 → bash_rc.getD r 0 = rc r := by decide +kernel

/-- The state when the columns below v are substituted. -/
def part (f : Nat → U64) (v : Nat) (i : Nat) : U64 := if i % 8 < v then sub f i else f i

theorem columns_eq (f : Nat → U64) : columns (FL 24 f) = FL 24 (sub f) := by
  have h : columns (FL 24 f) = FL 24 (part f 8) := by
    unfold columns
    refine forLoop_inv (a := 0) (b := 8) (s := FL 24 f) (body := _) (fun k (S : List U64) => S = FL 24 (part f k)) (by omega) ?_ ?_
    · apply FL_ext; intro i _; unfold part; rw [if_neg (by omega)]
    · intro v S _ hv hS
      subst hS
      dsimp only
      rw [FL_getD 24 _ _ _ (by omega), FL_getD 24 _ _ _ (by omega), FL_getD 24 _ _ _ (by omega)]
      obtain ⟨a0, b0⟩ := rot_eq v hv 0 (by omega)
      obtain ⟨a1, b1⟩ := rot_eq v hv 1 (by omega)
      obtain ⟨a2, b2⟩ := rot_eq v hv 2 (by omega)
      obtain ⟨a3, b3⟩ := rot_eq v hv 3 (by omega)
      rw [a0, a1, a2, a3, sbox_eq _ _ _ _ _ _ _ b0 b1 b2 b3]
      have e0 : part f v v = f v := by unfold part; rw [if_neg (by omega)]
      have e1 : part f v (v + 8) = f (8 + v) := by unfold part; rw [if_neg (by omega), Nat.add_comm]
      have e2 : part f v (v + 16) = f (16 + v) := by unfold part; rw [if_neg (by omega), Nat.add_comm]
      rw [e0, e1, e2, FL_set, FL_set, FL_set]
      apply FL_ext
      intro i hi
      have hc : Spec.Bash.sbox (Spec.Bash.rot v 0) (Spec.Bash.rot v 1) (Spec.Bash.rot v 2) (Spec.Bash.rot v 3) (f v, f (8 + v), f (16 + v)) = col f v := rfl
      rw [hc]
      by_cases c2 : i = v + 16
      · subst c2; rw [if_pos rfl]; unfold part sub
        rw [if_pos (by omega), if_neg (by omega), if_neg (by omega), show v + 16 - 16 = v by omega]
      · rw [if_neg c2]
        by_cases c1 : i = v + 8
        · subst c1; rw [if_pos rfl]; unfold part sub
          rw [if_pos (by omega), if_neg (by omega), if_pos (by omega), show v + 8 - 8 = v by omega]
        · rw [if_neg c1]
          by_cases c0 : i = v
          · subst c0; rw [if_pos rfl]; unfold part sub
            rw [if_pos (by omega), if_pos (by omega)]
          · rw [if_neg c0]; unfold part
            by_cases c : i % 8 < v
            · rw [if_pos c, if_pos (by omega)]
            · rw [if_neg c, if_neg (by omega)]
  rw [h]
  apply FL_ext
  intro i hi
  unfold part
  rw [if_pos (by omega)]

theorem permute_eq (f : Nat → U64) : BASH_PERMUTE (FL 24 f) = FL 24 (fun i => f (perm.getD i 0)) := by
  unfold BASH_PERMUTE
  simp only [FL_getD, Nat.reduceLT]
  rfl

/-- One round of the code. -/
def mround (S : List U64) (r : Nat) : List U64 := (BASH_PERMUTE (columns S)).set 23 ((BASH_PERMUTE (columns S)).getD 23 0 ^^^ bash_rc.getD r 0)

theorem round_eq (S : List U64) (hS : S.length = 24) (r : Nat) (hr : r < 24) : mround S r = Spec.Bash.round r S := by
  unfold mround
  rw [rc_eq r hr]
  have e : BASH_PERMUTE (columns S) = (List.range 24).map (fun i => sub (fun i => S.getD i 0) (perm.getD i 0)) := by
    rw [eq_FL 24 0 S hS, columns_eq, permute_eq, ← eq_FL 24 0 S hS]; rfl
  rw [e]; rfl

theorem round_length (r : Nat) (S : List U64) : (Spec.Bash.round r S).length = 24 := by simp [Spec.Bash.round]

theorem rounds_eq (S : List U64) (hS : S.length = 24) :
    forLoop 0 24 mround S = (List.range 24).foldl (fun S r => Spec.Bash.round r S) S ∧ (forLoop 0 24 mround S).length = 24 := by
  refine forLoop_inv (a := 0) (b := 24) (s := S) (body := mround) (fun k (T : List U64) => T = (List.range k).foldl (fun S r => Spec.Bash.round r S) S ∧ T.length = 24) (by omega) ?_ ?_
  · exact ⟨rfl, hS⟩
  · intro k T _ hk hT
    rw [round_eq T hT.2 k hk, List.range_succ, List.foldl_append, ← hT.1]
    exact ⟨rfl, round_length _ _⟩

theorem be64_swap (v : U64) : be64 (SWAP64 v) = le64 v := by
  have h : ∀ i, i < 8 → (SWAP64 v).extractLsb' (56 - 8 * i) 8 = v.extractLsb' (8 * i) 8 := by
    intro i hi
    apply BitVec.eq_of_getLsbD_eq
    intro j hj
    unfold SWAP64
    interval_cases i <;> interval_cases j <;> simp [-BitVec.getLsbD_eq_getElem]
  unfold le64 be64
  simp only [List.cons.injEq, and_true]
  exact ⟨h 0 (by omega), h 1 (by omega), h 2 (by omega), h 3 (by omega), h 4 (by omega), h 5 (by omega), h 6 (by omega), h 7 (by omega)⟩

theorem swap_le (v : U64) : le64 (SWAP64 v) = be64 v := by
  have h : ∀ i, i < 8 → (SWAP64 v).extractLsb' (8 * i) 8 = v.extractLsb' (56 - 8 * i) 8 := by
    intro i hi
    apply BitVec.eq_of_getLsbD_eq
    intro j hj
    unfold SWAP64
    interval_cases i <;> interval_cases j <;> simp [-BitVec.getLsbD_eq_getElem]
  unfold le64 be64
  simp only [List.cons.injEq, and_true]
  exact ⟨h 0 (by omega), h 1 (by omega), h 2 (by omega), h 3 (by omega), h 4 (by omega), h 5 (by omega), h 6 (by omega), h 7 (by omega)⟩

theorem tb_length (w : List U64) : (uint64sToBytes w).length = 8 * w.length := by
  unfold uint64sToBytes
  induction w with
  | nil => rfl
  | cons a w ih => rw [List.flatMap_cons, List.length_append, ih, be64_length, List.length_cons]; omega

theorem tb_swap (w : List U64) : uint64sToBytes (w.map SWAP64) = w.flatMap le64 := by
  unfold uint64sToBytes
  induction w with
  | nil => rfl
  | cons a w ih => rw [List.map_cons, List.flatMap_cons, ih, be64_swap, List.flatMap_cons]

theorem tl_swap (w : List U64) : (w.map SWAP64).flatMap le64 = uint64sToBytes w := by
  unfold uint64sToBytes
  induction w with
  | nil => rfl
  | cons a w ih => rw [List.map_cons, List.flatMap_cons, ih, swap_le, List.flatMap_cons]

theorem getLE64_flat (w : List U64) (i : Nat) (h : i < w.length) : getLE64 (w.flatMap le64) (8 * i) = w.getD i 0 := by
  have := getLE64_flatten w [] i h
  rwa [List.append_nil, ← List.flatMap_def] at this

theorem getBE64_flat (w : List U64) (i : Nat) (h : i < w.length) : getBE64 (w.flatMap be64) (8 * i) = w.getD i 0 := by
  have := getBE64_flatten w [] i h
  rwa [List.append_nil, ← List.flatMap_def] at this

/-- The permutation of the code on the words, seen on the bytes, is bash-f. -/
theorem BASHF_eq (S : List U64) (hS : S.length = 24) : uint64sToBytes (BASHF S) = Spec.Bash.f (uint64sToBytes S) ∧ (BASHF S).length = 24 := by
  have hl : (S.map SWAP64).length = 24 := by rw [List.length_map, hS]
  obtain ⟨r1, r2⟩ := rounds_eq _ hl
  have hB : BASHF S = (forLoop 0 24 mround (S.map SWAP64)).map SWAP64 := rfl
  constructor
  · rw [hB, tb_swap, r1]
    unfold Spec.Bash.f
    have e : (List.range 24).map (fun i => getLE64 (uint64sToBytes S) (8 * i)) = S.map SWAP64 := by
      rw [← tl_swap]
      refine Eq.trans ?_ (eq_FL 24 0 _ hl).symm
      apply FL_ext
      intro i hi
      exact getLE64_flat _ _ (by rw [hl]; exact hi)
    rw [e]
  · rw [hB, List.length_map, r2]

theorem bw_length (b : Bytes) (h : b.length = 192) : (bytesToUint64s b).length = 24 := by simp [bytesToUint64s, h]

theorem tb_bw (b : Bytes) (h : b.length = 192) : uint64sToBytes (bytesToUint64s b) = b := by
  have hw : (bytesToUint64s b).length = 24 := bw_length b h
  apply ext_at8
  · rw [tb_length, hw, h]
  · intro i hi
    rw [tb_length, hw] at hi
    have hq : i / 8 < (bytesToUint64s b).length := by omega
    have e1 := getBE64_extract (uint64sToBytes (bytesToUint64s b)) (8 * (i / 8)) (i % 8) (by omega)
    have e2 := getBE64_extract b (8 * (i / 8)) (i % 8) (by omega)
    rw [show 8 * (i / 8) + i % 8 = i by omega] at e1 e2
    have e3 : getBE64 (uint64sToBytes (bytesToUint64s b)) (8 * (i / 8)) = getBE64 b (8 * (i / 8)) := by
      unfold uint64sToBytes
      rw [getBE64_flat _ _ hq]
      unfold bytesToUint64s
      rw [List.getD_eq_getElem?_getD, List.getElem?_map, List.getElem?_range (by omega)]; rfl
    rw [← e1, ← e2, e3]

theorem tb_xor (a b : List U64) (h : a.length = b.length) : uint64sToBytes (List.zipWith (· ^^^ ·) a b) = List.zipWith (· ^^^ ·) (uint64sToBytes a) (uint64sToBytes b) := by
  unfold uint64sToBytes
  induction a generalizing b with
  | nil => simp
  | cons x a ih =>
    cases b with
    | nil => simp at h
    | cons y b =>
      rw [List.zipWith_cons_cons, List.flatMap_cons, List.flatMap_cons, List.flatMap_cons, List.zipWith_append (by rw [be64_length, be64_length]), be64_xor, ih b (by simpa using h)]

/-- processBlock on the bytes. -/
theorem processBlock_eq (s : List U64) (x : Bytes) (hs : s.length = 24) (hx : x.length = 192) :
    uint64sToBytes (processBlock s x) = Spec.Bash.f (List.zipWith (· ^^^ ·) (uint64sToBytes s) x) ∧ (processBlock s x).length = 24 := by
  have e : (List.range 24).map (fun k => s.getD k 0 ^^^ (bytesToUint64s x).getD k 0) = List.zipWith (· ^^^ ·) s (bytesToUint64s x) := by
    conv_rhs => rw [eq_FL 24 0 s hs, eq_FL 24 0 _ (bw_length x hx), FL_zipWith]
    rfl
  unfold processBlock
  dsimp only
  rw [e]
  obtain ⟨h1, h2⟩ := BASHF_eq (List.zipWith (· ^^^ ·) s (bytesToUint64s x)) (by rw [List.length_zipWith, hs, bw_length x hx]; rfl)
  refine ⟨?_, h2⟩
  rw [h1, tb_xor _ _ (by rw [hs, bw_length x hx]), tb_bw x hx]

end Verif.Bash
