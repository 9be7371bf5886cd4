import Verif.Lemmas.AES
import Verif.Spec.Shavite
import Verif.LoopBuf
import Verif.HistAuto
/-
SHAvite-3: expansion and compression.
-/
namespace Verif.Shavite
open Spec.Shavite (nonlin linear iter toList)
open Spec.AES (Col4)

theorem xa0 (rk : List U32) (a b c d v : U32) (u : Nat) (h : u = rk.length) : xorAt (rk ++ [a, b, c, d]) u v = rk ++ [a ^^^ v, b, c, d] := by
  subst h; unfold xorAt; simp
theorem xa1 (rk : List U32) (a b c d v : U32) (u : Nat) (h : u = rk.length + 1) : xorAt (rk ++ [a, b, c, d]) u v = rk ++ [a, b ^^^ v, c, d] := by
  subst h; unfold xorAt; rw [List.getD_eq_getElem?_getD, List.getElem?_append_right (by omega), List.set_append_right _ _ (by omega)]; simp
theorem xa2 (rk : List U32) (a b c d v : U32) (u : Nat) (h : u = rk.length + 2) : xorAt (rk ++ [a, b, c, d]) u v = rk ++ [a, b, c ^^^ v, d] := by
  subst h; unfold xorAt; rw [List.getD_eq_getElem?_getD, List.getElem?_append_right (by omega), List.set_append_right _ _ (by omega)]; simp
theorem xa3 (rk : List U32) (a b c d v : U32) (u : Nat) (h : u = rk.length + 3) : xorAt (rk ++ [a, b, c, d]) u v = rk ++ [a, b, c, d ^^^ v] := by
  subst h; unfold xorAt; rw [List.getD_eq_getElem?_getD, List.getElem?_append_right (by omega), List.set_append_right _ _ (by omega)]; simp

theorem nonlin_length (n : Nat) (tw : Nat → Col4) (l : List U32) : (nonlin n tw l).length = l.length + 4 := by simp [nonlin, toList]
theorem linear_length (n k : Nat) (l : List U32) : (linear n k l).length = l.length + 1 := by simp [linear]

theorem iter_succ {α} (f : α → α) (n : Nat) (a : α) : iter f (n + 1) a = f (iter f n a) := by
  unfold iter; rw [List.range_succ, List.foldl_append]; rfl
theorem iter_add {α} (f : α → α) (a b : Nat) (x : α) : iter f b (iter f a x) = iter f (a + b) x := by
  induction b with
  | zero => rfl
  | succ b ih => rw [iter_succ, ih, ← Nat.add_assoc, iter_succ]
theorem iter_zero {α} (f : α → α) (a : α) : iter f 0 a = a := rfl
theorem iter_length (f : List U32 → List U32) (k : Nat) (hf : ∀ l, (f l).length = l.length + k) (n : Nat) (l : List U32) : (iter f n l).length = l.length + k * n := by
  induction n with
  | zero => rfl
  | succ n ih => rw [iter_succ, hf, ih, Nat.mul_add]; omega

theorem x0 (x : U32) : x ^^^ 0 = x := BitVec.xor_zero

/-- The unkeyed step. -/
def raw (n : Nat) (l : List U32) : Col4 :=
  Spec.AES.add (Spec.Shavite.aes (Spec.Shavite.g l (l.length - n + 1), Spec.Shavite.g l (l.length - n + 2), Spec.Shavite.g l (l.length - n + 3), Spec.Shavite.g l (l.length - n)))
    (Spec.Shavite.quad l (l.length - 4))

theorem nonlin_eq (n : Nat) (tw : Nat → Col4) (l : List U32) : nonlin n tw l = l ++ toList (Spec.AES.add (raw n l) (tw l.length)) := rfl

theorem add_zero (q : Col4) : Spec.AES.add q (0, 0, 0, 0) = q := by
  unfold Spec.AES.add; simp only [x0]

theorem xorQ_eq : xorQ = Spec.AES.add := by funext a b; rfl

theorem keyed_eq (rk : List U32) (u : Nat) (p : Q) : keyed rk u p = Spec.Shavite.aes (Spec.AES.add p (Spec.Shavite.quad rk u)) := by
  unfold keyed; rw [aes_eq]; rfl

theorem foldl2 {α} (f : α → Nat → α) (n : Nat) (a : α) : (List.range (2 * n)).foldl f a = (List.range n).foldl (fun a i => f (f a (2 * i)) (2 * i + 1)) a := by
  induction n with
  | zero => rfl
  | succ n ih => rw [show 2 * (n + 1) = 2 * n + 1 + 1 by omega, List.range_succ, List.range_succ, List.foldl_append, List.foldl_append, ih, List.range_succ, List.foldl_append]; rfl

theorem forLoop_range {α} (n : Nat) (f : α → Nat → α) (a : α) : forLoop 0 n f a = (List.range n).foldl f a := by
  refine forLoop_inv (a := 0) (b := n) (s := a) (body := f) (fun k (b : α) => b = (List.range k).foldl f a) (Nat.zero_le _) rfl ?_
  intro k b _ _ hb
  rw [List.range_succ, List.foldl_append, ← hb]; rfl

namespace D256

theorem nl_eq (rk : List U32) (u : Nat) (hu : u = rk.length) (h : 16 ≤ u) : nl rk u = rk ++ toList (raw 16 rk) := by
  subst hu
  unfold nl raw
  dsimp only
  rw [aes_eq, show rk.length - 15 = rk.length - 16 + 1 by omega, show rk.length - 14 = rk.length - 16 + 2 by omega, show rk.length - 13 = rk.length - 16 + 3 by omega]
  rw [show rk.length - 3 = rk.length - 4 + 1 by omega, show rk.length - 2 = rk.length - 4 + 2 by omega, show rk.length - 1 = rk.length - 4 + 3 by omega]
  rfl

/-- The counter words as a function. -/
def cf (c0 c1 : U32) (i : Nat) : U32 := if i = 0 then c0 else c1

theorem two_eq (c0 c1 : U32) (rk : List U32) (u : Nat) (hu : u = rk.length) (h : 16 ≤ u) (h8 : u % 8 = 0) :
    two c0 c1 (rk, u) = (iter (nonlin 16 (Spec.Shavite.tw256 (cf c0 c1))) 2 rk, u + 8) := by
  have hi : iter (nonlin 16 (Spec.Shavite.tw256 (cf c0 c1))) 2 rk = nonlin 16 (Spec.Shavite.tw256 (cf c0 c1)) (nonlin 16 (Spec.Shavite.tw256 (cf c0 c1)) rk) := rfl
  have hl : (nonlin 16 (Spec.Shavite.tw256 (cf c0 c1)) rk).length = rk.length + 4 := nonlin_length _ _ _
  have s1 : (if u = 16 then xorAt (xorAt (nl rk u) 16 c0) 17 (~~~c1) else if u = 56 then xorAt (xorAt (nl rk u) 57 c1) 58 (~~~c0) else nl rk u) = nonlin 16 (Spec.Shavite.tw256 (cf c0 c1)) rk := by
    rw [nl_eq rk u hu h, nonlin_eq, ← hu]
    generalize raw 16 rk = q
    obtain ⟨a, b, c, d⟩ := q
    unfold toList Spec.Shavite.tw256
    by_cases e1 : u = 16
    · rw [if_pos e1, xa0 _ _ _ _ _ _ _ (by omega), xa1 _ _ _ _ _ _ _ (by omega)]
      subst e1
      simp [Spec.AES.add, cf]
    · rw [if_neg e1]
      by_cases e2 : u = 56
      · rw [if_pos e2, xa1 _ _ _ _ _ _ _ (by omega), xa2 _ _ _ _ _ _ _ (by omega)]
        subst e2
        simp [Spec.AES.add, cf]
      · rw [if_neg e2]
        split
        · omega
        · omega
        · omega
        · omega
        · rw [add_zero]
  have s2 : (if u + 4 = 84 then xorAt (xorAt (nl (nonlin 16 (Spec.Shavite.tw256 (cf c0 c1)) rk) (u + 4)) 86 c1) 87 (~~~c0) else if u + 4 = 124 then xorAt (xorAt (nl (nonlin 16 (Spec.Shavite.tw256 (cf c0 c1)) rk) (u + 4)) 124 c0) 127 (~~~c1) else
      nl (nonlin 16 (Spec.Shavite.tw256 (cf c0 c1)) rk) (u + 4)) = nonlin 16 (Spec.Shavite.tw256 (cf c0 c1)) (nonlin 16 (Spec.Shavite.tw256 (cf c0 c1)) rk) := by
    generalize hr : nonlin 16 (Spec.Shavite.tw256 (cf c0 c1)) rk = rk' at hl ⊢
    rw [nl_eq rk' (u + 4) (by omega) (by omega), nonlin_eq, hl, ← hu]
    generalize raw 16 rk' = q
    obtain ⟨a, b, c, d⟩ := q
    unfold toList Spec.Shavite.tw256
    by_cases e1 : u + 4 = 84
    · rw [if_pos e1, xa2 _ _ _ _ _ _ _ (by omega), xa3 _ _ _ _ _ _ _ (by omega), e1]
      simp [Spec.AES.add, cf]
    · rw [if_neg e1]
      by_cases e2 : u + 4 = 124
      · rw [if_pos e2, xa0 _ _ _ _ _ _ _ (by omega), xa3 _ _ _ _ _ _ _ (by omega), e2]
        simp [Spec.AES.add, cf]
      · rw [if_neg e2]
        split
        · omega
        · omega
        · omega
        · omega
        · rw [add_zero]
  rw [hi]
  unfold two
  dsimp only
  rw [s1, s2]

theorem lin_eq (rk : List U32) (u : Nat) (hu : u = rk.length) (h : 16 ≤ u) : lin (rk, u) = (iter (linear 16 3) 4 rk, u + 4) := by
  have hi : iter (linear 16 3) 4 rk = linear 16 3 (linear 16 3 (linear 16 3 (linear 16 3 rk))) := rfl
  have step : ∀ (l : List U32) (a b : Nat), a = l.length - 16 → b = l.length - 3 → l ++ [l.getD a 0 ^^^ l.getD b 0] = linear 16 3 l := by
    intro l a b ha hb; subst ha hb; rfl
  have hl := linear_length 16 3
  rw [hi]
  unfold lin
  dsimp only
  rw [step rk _ _ (by omega) (by omega), step (linear 16 3 rk) _ _ (by rw [hl]; omega) (by rw [hl]; omega),
    step (linear 16 3 (linear 16 3 rk)) _ _ (by rw [hl, hl]; omega) (by rw [hl, hl]; omega),
    step (linear 16 3 (linear 16 3 (linear 16 3 rk))) _ _ (by rw [hl, hl, hl]; omega) (by rw [hl, hl, hl]; omega)]

theorem words_eq (data : Bytes) : forLoop 0 4 (fun (rk : List U32) i =>
    let u := 4 * i
    rk ++ [getLE32 data (4 * u), getLE32 data (4 * u + 4), getLE32 data (4 * u + 8), getLE32 data (4 * u + 12)]) [] = Spec.Shavite.words 16 data := by
  refine forLoop_inv (a := 0) (b := 4) (s := []) (body := _) (fun k (rk : List U32) => rk = Spec.Shavite.words (4 * k) data) (by omega) rfl ?_
  intro k rk _ _ hk
  subst hk
  unfold Spec.Shavite.words
  rw [show 4 * (k + 1) = 4 * k + 1 + 1 + 1 + 1 by omega]
  simp only [List.range_succ, List.map_append, List.map_cons, List.map_nil, List.append_assoc, List.cons_append, List.nil_append]
  rfl

theorem twos_eq (c0 c1 : U32) (rk : List U32) (u : Nat) (hu : u = rk.length) (h : 16 ≤ u) (h8 : u % 8 = 0) :
    forLoop 0 2 (fun st _ => two c0 c1 st) (rk, u) = (iter (nonlin 16 (Spec.Shavite.tw256 (cf c0 c1))) 4 rk, u + 16) := by
  refine forLoop_inv (a := 0) (b := 2) (s := (rk, u)) (body := fun st _ => two c0 c1 st)
    (fun k st => st = (iter (nonlin 16 (Spec.Shavite.tw256 (cf c0 c1))) (2 * k) rk, u + 8 * k)) (by omega) rfl ?_
  intro k st _ _ hst
  subst hst
  have hl := iter_length (nonlin 16 (Spec.Shavite.tw256 (cf c0 c1))) 4 (nonlin_length _ _) (2 * k) rk
  rw [two_eq _ _ _ _ (by rw [hl]; omega) (by omega) (by omega)]
  rw [iter_add, show 2 * k + 2 = 2 * (k + 1) by omega, show u + 8 * k + 8 = u + 8 * (k + 1) by omega]

theorem lins_eq (rk : List U32) (u : Nat) (hu : u = rk.length) (h : 16 ≤ u) :
    forLoop 0 4 (fun st _ => lin st) (rk, u) = (iter (linear 16 3) 16 rk, u + 16) := by
  refine forLoop_inv (a := 0) (b := 4) (s := (rk, u)) (body := fun st _ => lin st)
    (fun k st => st = (iter (linear 16 3) (4 * k) rk, u + 4 * k)) (by omega) rfl ?_
  intro k st _ _ hst
  subst hst
  have hl := iter_length (linear 16 3) 1 (linear_length _ _) (4 * k) rk
  rw [lin_eq _ _ (by rw [hl]; omega) (by omega)]
  rw [iter_add, show 4 * k + 4 = 4 * (k + 1) by omega, show u + 4 * k + 4 = u + 4 * (k + 1) by omega]

theorem words_length (data : Bytes) (n : Nat) : (Spec.Shavite.words n data).length = n := by simp [Spec.Shavite.words]

/-- One turn of the expansion. -/
def turn (c0 c1 : U32) (l : List U32) : List U32 := iter (linear 16 3) 16 (iter (nonlin 16 (Spec.Shavite.tw256 (cf c0 c1))) 4 l)

theorem turn_length (c0 c1 : U32) (l : List U32) : (turn c0 c1 l).length = l.length + 32 := by
  unfold turn
  rw [iter_length _ 1 (linear_length _ _), iter_length _ 4 (nonlin_length _ _)]

theorem turns_eq (c0 c1 : U32) (n : Nat) (rk : List U32) (hl : rk.length = 16) :
    forLoop 0 n (fun st _ =>
      let st := forLoop 0 2 (fun st _ => two c0 c1 st) st
      forLoop 0 4 (fun st _ => lin st) st) (rk, 16) = (iter (turn c0 c1) n rk, 16 + 32 * n) := by
  refine forLoop_inv (a := 0) (b := n) (s := (rk, 16)) (body := _)
    (fun k st => st = (iter (turn c0 c1) k rk, 16 + 32 * k)) (by omega) rfl ?_
  intro k st _ _ hst
  subst hst
  have hk := iter_length (turn c0 c1) 32 (turn_length c0 c1) k rk
  dsimp only
  rw [twos_eq _ _ _ _ (by rw [hk]; omega) (by omega) (by omega),
    lins_eq _ _ (by rw [iter_length _ 4 (nonlin_length _ _), hk]; omega) (by omega), iter_succ (turn c0 c1) k rk, turn.eq_1 c0 c1 (iter (turn c0 c1) k rk), show 16 + 32 * k + 16 + 16 = 16 + 32 * (k + 1) by omega]

theorem expand_eq (data : Bytes) (c0 c1 : U32) : expand data c0 c1 = Spec.Shavite.expand256 data (cf c0 c1) := by
  unfold expand
  dsimp only
  rw [words_eq, turns_eq _ _ _ _ (words_length _ _)]
  unfold Spec.Shavite.expand256 turn
  with_reducible rfl

theorem F_eq (rk : List U32) (u : Nat) (p : Q) : F rk u p = Spec.Shavite.F rk u 3 p := by
  unfold F; rw [keyed_eq, keyed_eq, keyed_eq]; rfl

theorem fold_eq (rk : List U32) (n : Nat) (s : Q × Q) : (List.range n).foldl (fun (st : Q × Q) r =>
      (xorQ st.1 (Spec.Shavite.F rk (24 * r) 3 st.2), xorQ st.2 (Spec.Shavite.F rk (24 * r + 12) 3 (xorQ st.1 (Spec.Shavite.F rk (24 * r) 3 st.2))))) s =
      (List.range n).foldl (fun (a : Col4 × Col4) i =>
        (Spec.AES.add a.1 (Spec.Shavite.F rk (12 * (2 * i)) 3 a.2), Spec.AES.add a.2 (Spec.Shavite.F rk (12 * (2 * i + 1)) 3 (Spec.AES.add a.1 (Spec.Shavite.F rk (12 * (2 * i)) 3 a.2))))) s := by
  have e : (fun (st : Q × Q) r =>
      (xorQ st.1 (Spec.Shavite.F rk (24 * r) 3 st.2), xorQ st.2 (Spec.Shavite.F rk (24 * r + 12) 3 (xorQ st.1 (Spec.Shavite.F rk (24 * r) 3 st.2))))) = 
      (fun (a : Col4 × Col4) i =>
        (Spec.AES.add a.1 (Spec.Shavite.F rk (12 * (2 * i)) 3 a.2), Spec.AES.add a.2 (Spec.Shavite.F rk (12 * (2 * i + 1)) 3 (Spec.AES.add a.1 (Spec.Shavite.F rk (12 * (2 * i)) 3 a.2))))) := by
    funext st r
    rw [show 24 * r = 12 * (2 * r) by omega, show 12 * (2 * r) + 12 = 12 * (2 * r + 1) by omega, xorQ_eq]
  rw [e]

theorem feed (h : List U32) (st : Q × Q) : (match st.1, st.2 with
    | (p0, p1, p2, p3), (p4, p5, p6, p7) =>
      [h.getD 0 0 ^^^ p0, h.getD 1 0 ^^^ p1, h.getD 2 0 ^^^ p2, h.getD 3 0 ^^^ p3, h.getD 4 0 ^^^ p4, h.getD 5 0 ^^^ p5, h.getD 6 0 ^^^ p6, h.getD 7 0 ^^^ p7]) =
    toList (Spec.AES.add (Spec.Shavite.quad h 0) st.1) ++ toList (Spec.AES.add (Spec.Shavite.quad h 4) st.2) := by
  obtain ⟨⟨a, b, c, d⟩, ⟨a', b', c', d'⟩⟩ := st
  rfl

theorem process_eq (h : List U32) (data : Bytes) (c0 c1 : U32) : process h data c0 c1 = Spec.Shavite.compress256 h data (cf c0 c1) := by
  unfold process Spec.Shavite.compress256
  dsimp only
  rw [expand_eq, forLoop_range, show (12 : Nat) = 2 * 6 from rfl, foldl2]
  simp only [F_eq]
  generalize Spec.Shavite.expand256 data (cf c0 c1) = rk
  rw [fold_eq rk 6 (quad h 0, quad h 4)]
  exact feed h _

end D256

namespace D512

theorem nl_eq (rk : List U32) (u : Nat) (hu : u = rk.length) (h : 32 ≤ u) : nl rk u = rk ++ toList (raw 32 rk) := by
  subst hu
  unfold nl raw
  dsimp only
  rw [aes_eq, show rk.length - 31 = rk.length - 32 + 1 by omega, show rk.length - 30 = rk.length - 32 + 2 by omega, show rk.length - 29 = rk.length - 32 + 3 by omega]
  rw [show rk.length - 3 = rk.length - 4 + 1 by omega, show rk.length - 2 = rk.length - 4 + 2 by omega, show rk.length - 1 = rk.length - 4 + 3 by omega]
  rfl

/-- The counter words as a function. -/
def cf (c0 c1 c2 : U32) (i : Nat) : U32 := if i = 0 then c0 else if i = 1 then c1 else if i = 2 then c2 else 0

theorem two_eq (c0 c1 c2 : U32) (rk : List U32) (u : Nat) (hu : u = rk.length) (h : 32 ≤ u) (h8 : u % 8 = 0) :
    two c0 c1 c2 (rk, u) = (iter (nonlin 32 (Spec.Shavite.tw512 (cf c0 c1 c2))) 2 rk, u + 8) := by
  have hi : iter (nonlin 32 (Spec.Shavite.tw512 (cf c0 c1 c2))) 2 rk = nonlin 32 (Spec.Shavite.tw512 (cf c0 c1 c2)) (nonlin 32 (Spec.Shavite.tw512 (cf c0 c1 c2)) rk) := rfl
  have hl : (nonlin 32 (Spec.Shavite.tw512 (cf c0 c1 c2)) rk).length = rk.length + 4 := nonlin_length _ _ _
  have s1 : (if u = 32 then xorAt (xorAt (xorAt (xorAt (nl rk u) 32 c0) 33 c1) 34 c2) 35 0xffffffff else if u = 440 then xorAt (xorAt (xorAt (nl rk u) 440 c1) 441 c0) 443 (~~~c2) else nl rk u) = nonlin 32 (Spec.Shavite.tw512 (cf c0 c1 c2)) rk := by
    rw [nl_eq rk u hu h, nonlin_eq, ← hu]
    generalize raw 32 rk = q
    obtain ⟨a, b, c, d⟩ := q
    unfold toList Spec.Shavite.tw512
    by_cases e1 : u = 32
    · rw [if_pos e1, xa0 _ _ _ _ _ _ _ (by omega), xa1 _ _ _ _ _ _ _ (by omega), xa2 _ _ _ _ _ _ _ (by omega), xa3 _ _ _ _ _ _ _ (by omega)]
      subst e1
      simp [Spec.AES.add, cf]
    · rw [if_neg e1]
      by_cases e2 : u = 440
      · rw [if_pos e2, xa0 _ _ _ _ _ _ _ (by omega), xa1 _ _ _ _ _ _ _ (by omega), xa3 _ _ _ _ _ _ _ (by omega)]
        subst e2
        simp [Spec.AES.add, cf]
      · rw [if_neg e2]
        split
        · omega
        · omega
        · omega
        · omega
        · rw [add_zero]
  have s2 : (if u + 4 = 164 then xorAt (xorAt (xorAt (nl (nonlin 32 (Spec.Shavite.tw512 (cf c0 c1 c2)) rk) (u + 4)) 165 c2) 166 c1) 167 (~~~c0) else if u + 4 = 316 then xorAt (xorAt (xorAt (nl (nonlin 32 (Spec.Shavite.tw512 (cf c0 c1 c2)) rk) (u + 4)) 316 c2) 318 c0) 319 (~~~c1) else
      nl (nonlin 32 (Spec.Shavite.tw512 (cf c0 c1 c2)) rk) (u + 4)) = nonlin 32 (Spec.Shavite.tw512 (cf c0 c1 c2)) (nonlin 32 (Spec.Shavite.tw512 (cf c0 c1 c2)) rk) := by
    generalize hr : nonlin 32 (Spec.Shavite.tw512 (cf c0 c1 c2)) rk = rk' at hl ⊢
    rw [nl_eq rk' (u + 4) (by omega) (by omega), nonlin_eq, hl, ← hu]
    generalize raw 32 rk' = q
    obtain ⟨a, b, c, d⟩ := q
    unfold toList Spec.Shavite.tw512
    by_cases e1 : u + 4 = 164
    · rw [if_pos e1, xa1 _ _ _ _ _ _ _ (by omega), xa2 _ _ _ _ _ _ _ (by omega), xa3 _ _ _ _ _ _ _ (by omega), e1]
      simp [Spec.AES.add, cf]
    · rw [if_neg e1]
      by_cases e2 : u + 4 = 316
      · rw [if_pos e2, xa0 _ _ _ _ _ _ _ (by omega), xa2 _ _ _ _ _ _ _ (by omega), xa3 _ _ _ _ _ _ _ (by omega), e2]
        simp [Spec.AES.add, cf]
      · rw [if_neg e2]
        split
        · omega
        · omega
        · omega
        · omega
        · rw [add_zero]
  rw [hi]
  unfold two
  dsimp only
  rw [s1, s2]

theorem lin_eq (rk : List U32) (u : Nat) (hu : u = rk.length) (h : 32 ≤ u) : lin (rk, u) = (iter (linear 32 7) 4 rk, u + 4) := by
  have hi : iter (linear 32 7) 4 rk = linear 32 7 (linear 32 7 (linear 32 7 (linear 32 7 rk))) := rfl
  have step : ∀ (l : List U32) (a b : Nat), a = l.length - 32 → b = l.length - 7 → l ++ [l.getD a 0 ^^^ l.getD b 0] = linear 32 7 l := by
    intro l a b ha hb; subst ha hb; rfl
  have hl := linear_length 32 7
  rw [hi]
  unfold lin
  dsimp only
  rw [step rk _ _ (by omega) (by omega), step (linear 32 7 rk) _ _ (by rw [hl]; omega) (by rw [hl]; omega),
    step (linear 32 7 (linear 32 7 rk)) _ _ (by rw [hl, hl]; omega) (by rw [hl, hl]; omega),
    step (linear 32 7 (linear 32 7 (linear 32 7 rk))) _ _ (by rw [hl, hl, hl]; omega) (by rw [hl, hl, hl]; omega)]

theorem words_eq (data : Bytes) : forLoop 0 8 (fun (rk : List U32) i =>
    let u := 4 * i
    rk ++ [getLE32 data (4 * u), getLE32 data (4 * u + 4), getLE32 data (4 * u + 8), getLE32 data (4 * u + 12)]) [] = Spec.Shavite.words 32 data := by
  refine forLoop_inv (a := 0) (b := 8) (s := []) (body := _) (fun k (rk : List U32) => rk = Spec.Shavite.words (4 * k) data) (by omega) rfl ?_
  intro k rk _ _ hk
  subst hk
  unfold Spec.Shavite.words
  rw [show 4 * (k + 1) = 4 * k + 1 + 1 + 1 + 1 by omega]
  simp only [List.range_succ, List.map_append, List.map_cons, List.map_nil, List.append_assoc, List.cons_append, List.nil_append]
  rfl

theorem twos_eq (c0 c1 c2 : U32) (rk : List U32) (u : Nat) (hu : u = rk.length) (h : 32 ≤ u) (h8 : u % 8 = 0) :
    forLoop 0 4 (fun st _ => two c0 c1 c2 st) (rk, u) = (iter (nonlin 32 (Spec.Shavite.tw512 (cf c0 c1 c2))) 8 rk, u + 32) := by
  refine forLoop_inv (a := 0) (b := 4) (s := (rk, u)) (body := fun st _ => two c0 c1 c2 st)
    (fun k st => st = (iter (nonlin 32 (Spec.Shavite.tw512 (cf c0 c1 c2))) (2 * k) rk, u + 8 * k)) (by omega) rfl ?_
  intro k st _ _ hst
  subst hst
  have hl := iter_length (nonlin 32 (Spec.Shavite.tw512 (cf c0 c1 c2))) 4 (nonlin_length _ _) (2 * k) rk
  rw [two_eq _ _ _ _ _ (by rw [hl]; omega) (by omega) (by omega)]
  rw [iter_add, show 2 * k + 2 = 2 * (k + 1) by omega, show u + 8 * k + 8 = u + 8 * (k + 1) by omega]

theorem lins_eq (rk : List U32) (u : Nat) (hu : u = rk.length) (h : 32 ≤ u) :
    forLoop 0 8 (fun st _ => lin st) (rk, u) = (iter (linear 32 7) 32 rk, u + 32) := by
  refine forLoop_inv (a := 0) (b := 8) (s := (rk, u)) (body := fun st _ => lin st)
    (fun k st => st = (iter (linear 32 7) (4 * k) rk, u + 4 * k)) (by omega) rfl ?_
  intro k st _ _ hst
  subst hst
  have hl := iter_length (linear 32 7) 1 (linear_length _ _) (4 * k) rk
  rw [lin_eq _ _ (by rw [hl]; omega) (by omega)]
  rw [iter_add, show 4 * k + 4 = 4 * (k + 1) by omega, show u + 4 * k + 4 = u + 4 * (k + 1) by omega]

theorem words_length (data : Bytes) (n : Nat) : (Spec.Shavite.words n data).length = n := by simp [Spec.Shavite.words]

/-- One turn of the expansion. -/
def turn (c0 c1 c2 : U32) (l : List U32) : List U32 := iter (linear 32 7) 32 (iter (nonlin 32 (Spec.Shavite.tw512 (cf c0 c1 c2))) 8 l)

theorem turn_length (c0 c1 c2 : U32) (l : List U32) : (turn c0 c1 c2 l).length = l.length + 64 := by
  unfold turn
  rw [iter_length _ 1 (linear_length _ _), iter_length _ 4 (nonlin_length _ _)]

theorem turns_eq (c0 c1 c2 : U32) (n : Nat) (rk : List U32) (hl : rk.length = 32) :
    forLoop 0 n (fun st _ =>
      let st := forLoop 0 4 (fun st _ => two c0 c1 c2 st) st
      forLoop 0 8 (fun st _ => lin st) st) (rk, 32) = (iter (turn c0 c1 c2) n rk, 32 + 64 * n) := by
  refine forLoop_inv (a := 0) (b := n) (s := (rk, 32)) (body := _)
    (fun k st => st = (iter (turn c0 c1 c2) k rk, 32 + 64 * k)) (by omega) rfl ?_
  intro k st _ _ hst
  subst hst
  have hk := iter_length (turn c0 c1 c2) 64 (turn_length c0 c1 c2) k rk
  dsimp only
  rw [twos_eq _ _ _ _ _ (by rw [hk]; omega) (by omega) (by omega),
    lins_eq _ _ (by rw [iter_length _ 4 (nonlin_length _ _), hk]; omega) (by omega), iter_succ (turn c0 c1 c2) k rk, turn.eq_1 c0 c1 c2 (iter (turn c0 c1 c2) k rk), show 32 + 64 * k + 32 + 32 = 32 + 64 * (k + 1) by omega]

theorem expand_eq (data : Bytes) (c0 c1 c2 : U32) : expand data c0 c1 c2 = Spec.Shavite.expand512 data (cf c0 c1 c2) := by
  unfold expand
  dsimp only
  rw [words_eq, turns_eq _ _ _ _ _ (words_length _ _)]
  have hk := iter_length (turn c0 c1 c2) 64 (turn_length c0 c1 c2) 6 (Spec.Shavite.words 32 data)
  rw [words_length] at hk
  rw [twos_eq _ _ _ _ _ (by rw [hk]) (by omega) (by omega)]
  unfold Spec.Shavite.expand512
  rw [show turn c0 c1 c2 = fun l => iter (linear 32 7) 32 (iter (nonlin 32 (Spec.Shavite.tw512 (cf c0 c1 c2))) 8 l) from by funext l; unfold turn; with_reducible rfl]

theorem F_eq (rk : List U32) (u : Nat) (p : Q) : F rk u p = Spec.Shavite.F rk u 4 p := by
  unfold F; rw [keyed_eq, keyed_eq, keyed_eq, keyed_eq]; rfl

theorem feed (h : List U32) (st : Q × Q × Q × Q) : (match st.1, st.2.1, st.2.2.1, st.2.2.2 with
    | (p0, p1, p2, p3), (p4, p5, p6, p7), (p8, p9, pA, pB), (pC, pD, pE, pF) =>
      [h.getD 0 0 ^^^ p0, h.getD 1 0 ^^^ p1, h.getD 2 0 ^^^ p2, h.getD 3 0 ^^^ p3, h.getD 4 0 ^^^ p4, h.getD 5 0 ^^^ p5, h.getD 6 0 ^^^ p6, h.getD 7 0 ^^^ p7,
   h.getD 8 0 ^^^ p8, h.getD 9 0 ^^^ p9, h.getD 10 0 ^^^ pA, h.getD 11 0 ^^^ pB, h.getD 12 0 ^^^ pC, h.getD 13 0 ^^^ pD, h.getD 14 0 ^^^ pE, h.getD 15 0 ^^^ pF]) =
    toList (Spec.AES.add (Spec.Shavite.quad h 0) st.1) ++ toList (Spec.AES.add (Spec.Shavite.quad h 4) st.2.1) ++
    toList (Spec.AES.add (Spec.Shavite.quad h 8) st.2.2.1) ++ toList (Spec.AES.add (Spec.Shavite.quad h 12) st.2.2.2) := by
  obtain ⟨⟨a, b, c, d⟩, ⟨a', b', c', d'⟩, ⟨e, f, g, i⟩, ⟨e', f', g', i'⟩⟩ := st
  rfl

theorem process_eq (h : List U32) (data : Bytes) (c0 c1 c2 : U32) : process h data c0 c1 c2 = Spec.Shavite.compress512 h data (cf c0 c1 c2) := by
  unfold process Spec.Shavite.compress512
  dsimp only
  rw [expand_eq, forLoop_range]
  simp only [F_eq]
  generalize Spec.Shavite.expand512 data (cf c0 c1 c2) = rk
  rw [xorQ_eq]
  exact feed h _

end D512

end Verif.Shavite
