import Verif.Spec.JH
import Verif.SetLoop
import Verif.Words
import Mathlib.Tactic.IntervalCases
/-
The bit-sliced form of E8: eight words of 128 bits, word 2k + b holds bit k of the elements of parity b, and the permutation becomes a change of
positions that depends on the round modulo 7.
-/
namespace Verif.JH
open Spec.JH (Nib bit S L sLayer lLayer perm piSrc pPrimeSrc phiSrc)

/-- The S-boxes on bits. -/
def sl (c x0 x1 x2 x3 : Bool) : Bool × Bool × Bool × Bool :=
  let x3 := !x3
  let x0 := x0 ^^ (c && !x2)
  let t := c ^^ (x0 && x1)
  let x0 := x0 ^^ (x2 && x3)
  let x3 := x3 ^^ (!x1 && x2)
  let x1 := x1 ^^ (x0 && x2)
  let x2 := x2 ^^ (x0 && !x3)
  let x0 := x0 ^^ (x1 || x3)
  let x3 := x3 ^^ (x1 && x2)
  let x1 := x1 ^^ (t && x0)
  let x2 := x2 ^^ t
  (x0, x1, x2, x3)

def comp (t : Bool × Bool × Bool × Bool) : Nat → Bool
  | 0 => t.1
  | 1 => t.2.1
  | 2 => t.2.2.1
  | _ => t.2.2.2

def oddL (e o : Nat → Bool) : Nat → Bool
  | 0 => o 0 ^^ e 1
  | 1 => o 1 ^^ e 2
  | 2 => o 2 ^^ (e 3 ^^ e 0)
  | _ => o 3 ^^ e 0

def evenL (e o : Nat → Bool) : Nat → Bool
  | 0 => e 0 ^^ oddL e o 1
  | 1 => e 1 ^^ oddL e o 2
  | 2 => e 2 ^^ (oddL e o 3 ^^ oddL e o 0)
  | _ => e 3 ^^ oddL e o 0

def sX (c : Nat → Nat → Bool) (X : Nat → Nat → Bool) (b p : Nat) : Bool × Bool × Bool × Bool :=
  sl (c b p) (X b p) (X (2 + b) p) (X (4 + b) p) (X (6 + b) p)

/-- One bit-sliced round: S-boxes, linear layer, and the odd words move by `n`. -/
def BS (c : Nat → Nat → Bool) (n : Nat) (X : Nat → Nat → Bool) (k p : Nat) : Bool :=
  if k % 2 = 0 then evenL (comp (sX c X 0 p)) (comp (sX c X 1 p)) (k / 2)
  else oddL (comp (sX c X 0 (p ^^^ n))) (comp (sX c X 1 (p ^^^ n))) (k / 2)

/-- The elements `A` are in the words `X` at the places `lay`. -/
def Rel (lay : Nat → Nat) (X : Nat → Nat → Bool) (A : List Nib) : Prop :=
  ∀ j k, j < 256 → k < 4 → (A.getD j 0).getLsbD (3 - k) = X (2 * k + lay j % 2) (lay j / 2)

def src (j : Nat) : Nat := piSrc (pPrimeSrc 8 (phiSrc 8 j))
def mv (n q : Nat) : Nat := if q % 2 = 0 then q else 2 * ((q / 2) ^^^ n) + 1

theorem S_bits (c : Bool) (x : Nib) : (fun k => (S c x).getLsbD (3 - k)) = comp (sl c (x.getLsbD 3) (x.getLsbD 2) (x.getLsbD 1) (x.getLsbD 0)) := by
  have h : ∀ (c : Bool) (x : Nib) (k : Fin 4), (S c x).getLsbD (3 - k.val) = comp (sl c (x.getLsbD 3) (x.getLsbD 2) (x.getLsbD 1) (x.getLsbD 0)) k.val := by decide +kernel
  funext k
  match k with
  | 0 => exact h c x 0
  | 1 => exact h c x 1
  | 2 => exact h c x 2
  | n + 3 => rw [show 3 - (n + 3) = 0 by omega]; exact h c x 3

theorem L1_bits (a b : Nib) (k : Nat) : (L a b).1.getLsbD (3 - k) = evenL (fun k => a.getLsbD (3 - k)) (fun k => b.getLsbD (3 - k)) k := by
  have h : ∀ (a b : Nib) (k : Fin 4), (L a b).1.getLsbD (3 - k.val) = evenL (fun k => a.getLsbD (3 - k)) (fun k => b.getLsbD (3 - k)) k.val := by decide +kernel
  match k with
  | 0 => exact h a b 0
  | 1 => exact h a b 1
  | 2 => exact h a b 2
  | n + 3 => rw [show 3 - (n + 3) = 0 by omega]; exact h a b 3

theorem L2_bits (a b : Nib) (k : Nat) : (L a b).2.getLsbD (3 - k) = oddL (fun k => a.getLsbD (3 - k)) (fun k => b.getLsbD (3 - k)) k := by
  have h : ∀ (a b : Nib) (k : Fin 4), (L a b).2.getLsbD (3 - k.val) = oddL (fun k => a.getLsbD (3 - k)) (fun k => b.getLsbD (3 - k)) k.val := by decide +kernel
  match k with
  | 0 => exact h a b 0
  | 1 => exact h a b 1
  | 2 => exact h a b 2
  | n + 3 => rw [show 3 - (n + 3) = 0 by omega]; exact h a b 3

theorem getD_range {α} (f : Nat → α) (n i : Nat) (h : i < n) (d : α) : ((List.range n).map f).getD i d = f i := by
  rw [List.getD_eq_getElem?_getD, List.getElem?_map, List.getElem?_range h]; rfl

theorem src_lt (j : Nat) (h : j < 256) : src j < 256 := by
  have : ∀ j : Fin 256, src j.val < 256 := by decide +kernel
  exact this ⟨j, h⟩

/-- One round keeps the correspondence. -/
theorem round_rel (lay lay' : Nat → Nat) (X : Nat → Nat → Bool) (A : List Nib) (C : List Bool) (c : Nat → Nat → Bool) (n : Nat)
    (hR : Rel lay X A) (hp : ∀ i, i < 128 → lay (2 * i) % 2 = 0 ∧ lay (2 * i + 1) = lay (2 * i) + 1)
    (hc : ∀ j, j < 256 → C.getD j false = c (lay j % 2) (lay j / 2))
    (hl : ∀ j, j < 256 → lay' j = mv n (lay (src j))) : Rel lay' (BS c n X) (Spec.JH.round 8 C A) := by
  have hs : ∀ j, j < 256 → (fun k => ((sLayer 8 C A).getD j 0).getLsbD (3 - k)) = comp (sX c X (lay j % 2) (lay j / 2)) := by
    intro j hj
    unfold sLayer
    rw [getD_range _ _ _ (by omega), S_bits]
    unfold sX
    have e0 := hR j 0 hj (by omega)
    have e1 := hR j 1 hj (by omega)
    have e2 := hR j 2 hj (by omega)
    have e3 := hR j 3 hj (by omega)
    rw [hc j hj]
    simp only [Nat.mul_zero, Nat.zero_add, Nat.mul_one, Nat.reduceMul, Nat.reduceSub, Nat.sub_zero, Nat.sub_self] at e0 e1 e2 e3
    rw [e0, e1, e2, e3]
  intro j k hj hk
  have hsrc := src_lt j hj
  unfold Spec.JH.round perm
  rw [getD_range _ _ _ (by omega)]
  show ((lLayer 8 (sLayer 8 C A)).getD (src j) 0).getLsbD (3 - k) = _
  rw [hl j hj]
  generalize src j = s at hsrc
  unfold lLayer
  rw [getD_range _ _ _ (by omega)]
  obtain ⟨i, hi, hsi⟩ : ∃ i, i < 128 ∧ (s = 2 * i ∨ s = 2 * i + 1) := ⟨s / 2, by omega, by omega⟩
  obtain ⟨p1, p2⟩ := hp i hi
  have q1 : lay (2 * i + 1) % 2 = 1 := by omega
  have q2 : lay (2 * i + 1) / 2 = lay (2 * i) / 2 := by omega
  have s0 := hs (2 * i) (by omega)
  have s1 := hs (2 * i + 1) (by omega)
  rw [p1] at s0
  rw [q1, q2] at s1
  rcases hsi with rfl | rfl
  · rw [if_pos (by omega), L1_bits, s0, s1]
    unfold mv BS
    rw [if_pos p1, p1, Nat.add_zero, if_pos (by omega), show 2 * k / 2 = k by omega]
  · rw [if_neg (by omega), L2_bits, show 2 * i + 1 - 1 = 2 * i by omega, s0, s1]
    unfold mv
    rw [if_neg (show ¬ lay (2 * i + 1) % 2 = 0 by omega)]
    unfold BS
    rw [show (2 * (lay (2 * i + 1) / 2 ^^^ n) + 1) % 2 = 1 by omega, if_neg (by omega), show (2 * k + 1) / 2 = k by omega,
      show (2 * (lay (2 * i + 1) / 2 ^^^ n) + 1) / 2 = lay (2 * i + 1) / 2 ^^^ n by omega, Nat.xor_assoc, Nat.xor_self, Nat.xor_zero, q2]

/-! ### The places -/

def layL : Nat → List Nat
  | 0 => List.range 256
  | r + 1 => (List.range 256).map fun j => mv (2 ^ r) ((layL r).getD (src j) 0)
def lay (r j : Nat) : Nat := (layL (r % 7)).getD j 0

set_option maxRecDepth 100000 in
theorem lay7 : layL 7 = layL 0 := by decide +kernel
theorem lay_pairs (r i : Nat) (hi : i < 128) : lay r (2 * i) % 2 = 0 ∧ lay r (2 * i + 1) = lay r (2 * i) + 1 := by
  have : ∀ (r : Fin 7) (i : Fin 128), (layL r.val).getD (2 * i.val) 0 % 2 = 0 ∧ (layL r.val).getD (2 * i.val + 1) 0 = (layL r.val).getD (2 * i.val) 0 + 1 := by decide +kernel
  exact this ⟨r % 7, Nat.mod_lt _ (by omega)⟩ ⟨i, hi⟩
theorem lay_step (r j : Nat) (hj : j < 256) : lay (r + 1) j = mv (2 ^ (r % 7)) (lay r (src j)) := by
  unfold lay
  by_cases h : r % 7 = 6
  · rw [show (r + 1) % 7 = 0 by omega, ← lay7, h]
    show ((List.range 256).map _).getD j 0 = _
    rw [getD_range _ _ _ hj]
  · rw [show (r + 1) % 7 = r % 7 + 1 by omega]
    show ((List.range 256).map _).getD j 0 = _
    rw [getD_range _ _ _ hj]

theorem lay_zero (r j : Nat) (h : r % 7 = 0) (hj : j < 256) : lay r j = j := by
  unfold lay; rw [h]; unfold layL
  rw [List.getD_eq_getElem?_getD, List.getElem?_range hj]; rfl

/-! ### E8 -/

/-- The constants of the bit-sliced code are those of the specification. -/
def ConstOk (c : Nat → Nat → Nat → Bool) : Prop :=
  Spec.JH.consts = (List.range 42).map fun r => (List.range 256).map fun j => c r (lay r j % 2) (lay r j / 2)

/-- Equality of the bits that exist. -/
def EqX (X Y : Nat → Nat → Bool) : Prop := ∀ k p, k < 8 → p < 128 → X k p = Y k p

theorem xor_lt (p r : Nat) (h : p < 128) : p ^^^ 2 ^ (r % 7) < 128 := by
  have : 2 ^ (r % 7) < 2 ^ 7 := Nat.pow_lt_pow_right (by omega) (Nat.mod_lt _ (by omega))
  exact Nat.xor_lt_two_pow (n := 7) h this

theorem BS_congr (c : Nat → Nat → Bool) (r : Nat) {X Y : Nat → Nat → Bool} (h : EqX X Y) : EqX (BS c (2 ^ (r % 7)) X) (BS c (2 ^ (r % 7)) Y) := by
  have hs : ∀ b p, b < 2 → p < 128 → sX c X b p = sX c Y b p := by
    intro b p hb hp
    unfold sX
    rw [h b p (by omega) hp, h (2 + b) p (by omega) hp, h (4 + b) p (by omega) hp, h (6 + b) p (by omega) hp]
  intro k p hk hp
  unfold BS
  have := xor_lt p r hp
  rw [hs 0 p (by omega) hp, hs 1 p (by omega) hp, hs 0 _ (by omega) this, hs 1 _ (by omega) this]

def runX (c : Nat → Nat → Nat → Bool) (X : Nat → Nat → Bool) : Nat → Nat → Nat → Bool
  | 0 => X
  | r + 1 => BS (c r) (2 ^ (r % 7)) (runX c X r)

theorem consts_length (c : Nat → Nat → Nat → Bool) (h : ConstOk c) : Spec.JH.consts.length = 42 := by rw [h]; simp

theorem run_rel (c : Nat → Nat → Nat → Bool) (hc : ConstOk c) (X : Nat → Nat → Bool) (A : List Nib) (h : Rel (lay 0) X A) (r : Nat) (hr : r ≤ 42) :
    Rel (lay r) (runX c X r) ((Spec.JH.consts.take r).foldl (fun a c => Spec.JH.round 8 c a) A) := by
  induction r with
  | zero => exact h
  | succ r ih =>
    have hl := consts_length c hc
    rw [List.take_succ_eq_append_getElem (by omega), List.foldl_append]
    refine round_rel (lay r) (lay (r + 1)) _ _ _ (c r) _ (ih (by omega)) (lay_pairs r) ?_ (lay_step r)
    intro j hj
    have e : Spec.JH.consts[r]'(by omega) = (List.range 256).map fun j => c r (lay r j % 2) (lay r j / 2) := by
      have : Spec.JH.consts[r]? = some ((List.range 256).map fun j => c r (lay r j % 2) (lay r j / 2)) := by
        rw [hc, List.getElem?_map, List.getElem?_range (by omega)]; rfl
      rw [List.getElem?_eq_getElem (by omega)] at this
      exact Option.some.inj this
    rw [e, getD_range _ _ _ hj]

theorem bit_nibOf (a b c d : Bool) (k : Nat) (hk : k < 4) : (Spec.JH.nibOf a b c d).getLsbD (3 - k) = comp (a, b, c, d) k := by
  have : ∀ (a b c d : Bool) (k : Fin 4), (Spec.JH.nibOf a b c d).getLsbD (3 - k.val) = comp (a, b, c, d) k.val := by decide +kernel
  exact this a b c d ⟨k, hk⟩

theorem group_rel (h : Bytes) : Rel (lay 0) (fun k p => bit h (128 * k + p)) (Spec.JH.group h) := by
  intro j k hj hk
  rw [lay_zero 0 j rfl hj]
  unfold Spec.JH.group
  rw [getD_range _ _ _ hj]
  dsimp only
  rw [bit_nibOf _ _ _ _ k hk]
  match k, hk with
  | 0, _ => show bit h _ = _; congr 1; omega
  | 1, _ => show bit h _ = _; congr 1; omega
  | 2, _ => show bit h _ = _; congr 1; omega
  | 3, _ => show bit h _ = _; congr 1; omega

theorem bit_byteOf (f : Nat → Bool) (t : Nat) (ht : t < 8) : (Spec.JH.byteOf f).getLsbD (7 - t) = f t := by
  have e : Spec.JH.byteOf f = (BitVec.ofBoolListBE [f 0, f 1, f 2, f 3, f 4, f 5, f 6, f 7]).setWidth 8 := rfl
  have : ∀ (a b c d e f g h : Bool) (t : Fin 8), ((BitVec.ofBoolListBE [a, b, c, d, e, f, g, h]).setWidth 8 : Byte).getLsbD (7 - t.val) =
    [a, b, c, d, e, f, g, h].getD t.val false := by decide +kernel
  rw [e, this _ _ _ _ _ _ _ _ ⟨t, ht⟩]
  interval_cases t <;> rfl

theorem bit_degroup (A : List Nib) (i : Nat) (hi : i < 1024) :
    bit (Spec.JH.degroup A) i = (A.getD (2 * (i % 128) + i / 128 % 2) 0).getLsbD (3 - i / 256) := by
  unfold bit Spec.JH.degroup
  rw [at8_map_range _ _ _ (by omega), bit_byteOf _ _ (by omega)]
  dsimp only
  rw [show 8 * (i / 8) + i % 8 = i by omega]

/-- E8 computed in the bit-sliced way. -/
theorem E8_bits (c : Nat → Nat → Nat → Bool) (hc : ConstOk c) (h : Bytes) (k p : Nat) (hk : k < 8) (hp : p < 128) :
    bit (Spec.JH.E8 h) (128 * k + p) = runX c (fun k p => bit h (128 * k + p)) 42 k p := by
  unfold Spec.JH.E8
  rw [bit_degroup _ _ (by omega), show (128 * k + p) % 128 = p by omega, show (128 * k + p) / 128 = k by omega, show (128 * k + p) / 256 = k / 2 by omega]
  have := run_rel c hc _ _ (group_rel h) 42 (by omega) (2 * p + k % 2) (k / 2) (by omega) (by omega)
  rw [List.take_of_length_le (by rw [consts_length c hc]), lay_zero 42 _ rfl (by omega), show 2 * (k / 2) + (2 * p + k % 2) % 2 = k by omega,
    show (2 * p + k % 2) / 2 = p by omega] at this
  exact this

theorem E8_length (h : Bytes) : (Spec.JH.E8 h).length = 128 := by unfold Spec.JH.E8 Spec.JH.degroup; simp

theorem runX_congr (c : Nat → Nat → Nat → Bool) {X Y : Nat → Nat → Bool} (h : EqX X Y) (r : Nat) : EqX (runX c X r) (runX c Y r) := by
  induction r with
  | zero => exact h
  | succ r ih => exact BS_congr (c r) r ih

/-- Byte strings are equal when their bits are. -/
theorem ext_bits {a b : Bytes} (hl : a.length = b.length) (h : ∀ i, i < 8 * a.length → bit a i = bit b i) : a = b := by
  apply ext_at8 hl
  intro n hn
  apply BitVec.eq_of_getLsbD_eq
  intro j hj
  have := h (8 * n + (7 - j)) (by omega)
  unfold bit at this
  rw [show (8 * n + (7 - j)) / 8 = n by omega, show 7 - (8 * n + (7 - j)) % 8 = j by omega] at this
  exact this

end Verif.JH
