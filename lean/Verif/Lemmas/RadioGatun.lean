import Verif.Model.RadioGatun
import Verif.Spec.RadioGatun
import Verif.Lemmas.LSH
/-
RadioGatún: one round.
-/
namespace Verif.RadioGatun
open Spec.RadioGatun (st Belt State Params)
open LSH (getD_set' getD_map_range ext_getD)

structure Fit (P : Pkg w) (Q : Params w) : Prop where
  w0 : 0 < w
  wb0 : 0 < P.wb
  wb : P.wb = Q.bytes
  get : P.get = Q.get
  put : P.put = Q.put
  get_at : ∀ (b : Bytes) (j n i : Nat), i + P.wb ≤ n → P.get b (j + i) = P.get ((b.drop j).take n) i
  get_zero : ∀ n i, P.get (zeros n) i = 0
  rot : P.rot = (List.range 18).map fun i => (7 * (i + 1) % 19, w - (i + 1) * (i + 2) / 2 % w, (i + 1) * (i + 2) / 2 % w)
  num : P.num = 16 + P.outs
  outs : P.outs = 16 / P.wb

theorem millT_eq {P : Pkg w} {Q : Params w} (h : Fit P Q) (a : List (BitVec w)) : millT P a = Spec.RadioGatun.mill a := by
  unfold millT Spec.RadioGatun.mill
  dsimp only
  have e1 : gammaT (fun i => a.getD i 0) = Spec.RadioGatun.gamma a := rfl
  rw [e1]
  generalize Spec.RadioGatun.gamma a = t
  have e2 : piT P (fun i => t.getD i 0) = Spec.RadioGatun.pi t := by
    unfold piT Spec.RadioGatun.pi
    rw [h.rot, List.map_map, show (List.range 19) = 0 :: (List.range 18).map (· + 1) from rfl, List.map_cons, List.map_map]
    congr 1
    · show t.getD 0 0 = BitVec.rotateRight (t.getD 0 0) 0
      rw [BitVec.rotateRight_def, Nat.zero_mod]
      simp [BitVec.shiftLeft_eq_zero]
    · apply List.map_congr_left
      intro i _
      show _ = (st t (7 * (i + 1))).rotateRight ((i + 1) * (i + 2) / 2)
      rw [BitVec.rotateRight_def, BitVec.or_comm]
      rfl
  rw [e2]
  generalize Spec.RadioGatun.pi t = u
  rfl

theorem xor_zero' (x : BitVec w) : x ^^^ (0 : BitVec w) = x := BitVec.xor_zero

theorem xorAt_length (x : List (BitVec w)) (i : Nat) (v : BitVec w) : (xorAt x i v).length = x.length := List.length_set
theorem xorAt_getD (x : List (BitVec w)) (i j : Nat) (v : BitVec w) (hj : j < x.length) : (xorAt x i v).getD j 0 = if i = j then x.getD j 0 ^^^ v else x.getD j 0 := by
  unfold xorAt
  rw [getD_set']
  by_cases h : i = j
  · subst h; rw [if_pos ⟨rfl, hj⟩, if_pos rfl]
  · rw [if_neg (fun c => h c.1), if_neg h]

theorem xor3 (x : List (BitVec w)) (n : Nat) (v : Nat → BitVec w) (j : Nat) (hj : j < x.length) :
    (xorAt (xorAt (xorAt x n (v 0)) (n + 1) (v 1)) (n + 2) (v 2)).getD j 0 = if n ≤ j ∧ j < n + 3 then x.getD j 0 ^^^ v (j - n) else x.getD j 0 := by
  rw [xorAt_getD _ _ _ _ (by rw [xorAt_length, xorAt_length]; exact hj), xorAt_getD _ _ _ _ (by rw [xorAt_length]; exact hj), xorAt_getD _ _ _ _ hj]
  by_cases h0 : j = n
  · subst h0; rw [if_neg (by omega), if_neg (by omega), if_pos rfl, if_pos (by omega), Nat.sub_self]
  · by_cases h1 : j = n + 1
    · subst h1; rw [if_neg (by omega), if_pos rfl, if_neg (by omega), if_pos (by omega), show n + 1 - n = 1 by omega]
    · by_cases h2 : j = n + 2
      · subst h2; rw [if_pos rfl, if_neg (by omega), if_neg (by omega), if_pos (by omega), show n + 2 - n = 2 by omega]
      · rw [if_neg (by omega), if_neg (by omega), if_neg (by omega), if_neg (by omega)]

theorem feed_eq (a b : List (BitVec w)) (hb : b.length = 39) (mk : Nat) (hmk : mk < 13) :
    (feed a b mk).length = 39 ∧ ∀ e i, e < 13 → i < 3 → (feed a b mk).getD (3 * e + i) 0 =
      b.getD (3 * e + i) 0 ^^^ (if (e + 12 - mk) % 13 < 12 ∧ (e + 12 - mk) % 13 % 3 = i then a.getD ((e + 12 - mk) % 13 + 1) 0 else 0) := by
  have h := forLoop_inv (P := fun n (s : Nat × List (BitVec w)) => s.1 = 3 * ((mk + n) % 13) ∧ s.2.length = 39 ∧ ∀ e i, e < 13 → i < 3 → s.2.getD (3 * e + i) 0 =
      b.getD (3 * e + i) 0 ^^^ (if (e + 12 - mk) % 13 < n ∧ (e + 12 - mk) % 13 % 3 = i then a.getD ((e + 12 - mk) % 13 + 1) 0 else 0))
    (a := 0) (b := 12) (s := (3 * mk, b)) (body := fun (s : Nat × List (BitVec w)) j =>
    let bj := s.1 + 3
    let bj := if bj = 39 then 0 else bj
    (bj, xorAt s.2 (bj + j % 3) (a.getD (j + 1) 0))) (by omega)
    ⟨by show 3 * mk = _; omega, hb, fun e i _ _ => by rw [if_neg (by omega), xor_zero']⟩ (by
      intro n s _ hn ⟨h1, h2, h3⟩
      have hbj : (if s.1 + 3 = 39 then 0 else s.1 + 3) = 3 * ((mk + (n + 1)) % 13) := by
        rw [h1]
        by_cases hc : 3 * ((mk + n) % 13) + 3 = 39
        · rw [if_pos hc]; omega
        · rw [if_neg hc]; omega
      dsimp only
      rw [hbj]
      refine ⟨rfl, by rw [xorAt_length]; exact h2, ?_⟩
      intro e i he hi
      rw [xorAt_getD _ _ _ _ (by rw [h2]; omega), h3 e i he hi]
      have hloc : 3 * ((mk + (n + 1)) % 13) + n % 3 = 3 * e + i ↔ (e + 12 - mk) % 13 = n ∧ n % 3 = i := by
        have t1 : (mk + (n + 1)) % 13 = e ↔ (e + 12 - mk) % 13 = n := by omega
        rw [← t1]
        generalize (mk + (n + 1)) % 13 = A
        omega
      generalize (e + 12 - mk) % 13 = q at *
      by_cases c1 : q = n
      · by_cases c2 : n % 3 = i
        · rw [if_pos (hloc.2 ⟨c1, c2⟩), if_neg (by omega), if_pos ⟨by omega, by rw [c1]; exact c2⟩, xor_zero', c1]
        · rw [if_neg (fun c => c2 (hloc.1 c).2), if_neg (by omega), if_neg (fun c => c2 (by rw [← c1]; exact c.2))]
      · rw [if_neg (fun c => c1 (hloc.1 c).1)]
        by_cases c3 : q < n ∧ q % 3 = i
        · rw [if_pos c3, if_pos ⟨by omega, c3.2⟩]
        · rw [if_neg c3, if_neg (fun c => c3 ⟨by omega, c.2⟩)])
  exact ⟨h.2.1, h.2.2⟩

/-- The belt is held from stage e on. -/
structure Rel (e : Nat) (c : Core w) (S : State w) : Prop where
  a : c.a = S.a
  al : c.a.length = 19
  bl : c.b.length = 39
  ring : ∀ j i, j < 13 → i < 3 → S.b j i = c.b.getD (3 * ((e + j) % 13) + i) 0

theorem mill_length (a : List (BitVec w)) : (Spec.RadioGatun.mill a).length = 19 := rfl

theorem xor3_list (x : List (BitVec w)) (hx : x.length = 19) (n : Nat) (v : Nat → BitVec w) :
    xorAt (xorAt (xorAt x n (v 0)) (n + 1) (v 1)) (n + 2) (v 2) = (List.range 19).map fun i => if n ≤ i ∧ i < n + 3 then st x i ^^^ v (i - n) else st x i := by
  apply ext_getD
  · rw [xorAt_length, xorAt_length, xorAt_length, List.length_map, List.length_range, hx]
  · intro i hi
    rw [xorAt_length, xorAt_length, xorAt_length, hx] at hi
    rw [xor3 x n v i (by omega), getD_map_range _ _ _ _ hi]
    unfold st
    rw [Nat.mod_eq_of_lt hi]

/-- The round without input, wherever the belt starts. -/
theorem round_rel {P : Pkg w} {Q : Params w} (hf : Fit P Q) (e mk : Nat) (he : e < 13) (hmk : mk = (e + 12) % 13) (c : Core w) (S : State w) (h : Rel e c S) :
    let b := feed c.a c.b mk
    let a := millT P c.a
    Rel mk { a := xorAt (xorAt (xorAt a 13 (b.getD (mk * 3 + 0) 0)) 14 (b.getD (mk * 3 + 1) 0)) 15 (b.getD (mk * 3 + 2) 0), b := b } (Spec.RadioGatun.round S) := by
  obtain ⟨ha, hal, hbl, hr⟩ := h
  obtain ⟨f1, f2⟩ := feed_eq c.a c.b hbl mk (by omega)
  dsimp only
  refine ⟨?_, ?_, f1, ?_⟩
  · rw [millT_eq hf, ha]
    have hm := mill_length S.a
    rw [xor3_list (Spec.RadioGatun.mill S.a) hm 13 (fun i => (feed S.a c.b mk).getD (mk * 3 + i) 0)]
    unfold Spec.RadioGatun.round
    dsimp only
    apply List.map_congr_left
    intro i _
    by_cases hc : 13 ≤ i ∧ i < 16
    · rw [if_pos hc, if_pos hc]
      congr 1
      rw [ha] at f2
      rw [Nat.mul_comm mk 3, f2 mk (i - 13) (by omega) (by omega), if_neg (by omega), xor_zero', hr 12 (i - 13) (by omega) (by omega), show (e + 12) % 13 = mk from hmk.symm]
    · rw [if_neg hc, if_neg hc]
  · dsimp only
    rw [xorAt_length, xorAt_length, xorAt_length, millT_eq hf, mill_length]
  · intro j i hj hi
    dsimp only
    rw [f2 _ i (by omega) hi]
    unfold Spec.RadioGatun.round
    dsimp only
    rw [hr _ i (by omega) hi, show (e + (j + 12) % 13) % 13 = (mk + j) % 13 by omega]
    congr 1
    by_cases h0 : 1 ≤ j ∧ (j - 1) % 3 = i
    · rw [if_pos h0, if_pos (by omega), show ((mk + j) % 13 + 12 - mk) % 13 + 1 = j by omega]
      unfold st
      rw [← ha, Nat.mod_eq_of_lt (by omega)]
    · rw [if_neg h0, if_neg (by omega)]

theorem input_rel (e : Nat) (he : e < 13) (c : Core w) (S : State w) (q : Nat → BitVec w) (h : Rel e c S) :
    Rel e { a := xorAt (xorAt (xorAt c.a 16 (q 0)) 17 (q 1)) 18 (q 2), b := xorAt (xorAt (xorAt c.b (3 * e + 0) (q 0)) (3 * e + 1) (q 1)) (3 * e + 2) (q 2) }
      (Spec.RadioGatun.input q S) := by
  refine ⟨?_, ?_, ?_, ?_⟩
  · show xorAt _ _ _ = (List.range 19).map fun i => if 16 ≤ i then st S.a i ^^^ q (i - 16) else st S.a i
    rw [xor3_list c.a h.al 16 q, h.a]
    apply List.map_congr_left
    intro i hi
    rw [List.mem_range] at hi
    by_cases hc : 16 ≤ i
    · rw [if_pos (by omega), if_pos hc]
    · rw [if_neg (by omega), if_neg hc]
  · show (xorAt _ _ _).length = 19; rw [xorAt_length, xorAt_length, xorAt_length, h.al]
  · show (xorAt _ _ _).length = 39; rw [xorAt_length, xorAt_length, xorAt_length, h.bl]
  · intro j i hj hi
    show (if j = 0 then S.b 0 i ^^^ q i else S.b j i) = (xorAt _ _ _).getD _ 0
    rw [Nat.add_zero, xor3 c.b _ q _ (by rw [h.bl]; omega), ← h.ring j i hj hi]
    by_cases h0 : j = 0
    · rw [if_pos h0, if_pos (by omega), h0, show 3 * ((e + 0) % 13) + i - 3 * e = i by omega]
    · rw [if_neg h0, if_neg (by omega)]

/-- A turn of processBlock. -/
theorem turn_rel {P : Pkg w} {Q : Params w} (hf : Fit P Q) (data : Bytes) (k : Nat) (hk : k < 13) (c : Core w) (S : State w) (h : Rel ((13 - k) % 13) c S) :
    Rel (12 - k) (turn P data c k) (Spec.RadioGatun.inject Q S ((data.drop (k * (3 * P.wb))).take (3 * P.wb))) := by
  have hbj : (if 12 - k = 12 then 0 else 3 * (12 - k + 1)) = 3 * ((13 - k) % 13) := by
    by_cases hc : 12 - k = 12
    · rw [if_pos hc]; omega
    · rw [if_neg hc]; omega
  unfold turn Spec.RadioGatun.inject
  dsimp only
  rw [hbj]
  have hp : ∀ i, i < 3 → Q.get ((data.drop (k * (3 * P.wb))).take (3 * P.wb)) (i * Q.bytes) = P.get data (k * (3 * P.wb) + i * P.wb) := by
    intro i hi
    rw [← hf.get, ← hf.wb, hf.get_at data (k * (3 * P.wb)) (3 * P.wb) (i * P.wb) (by
      have : (i + 1) * P.wb ≤ 3 * P.wb := Nat.mul_le_mul_right _ (by omega)
      rw [Nat.add_mul, Nat.one_mul] at this; exact this)]
  generalize hq : (fun i => Q.get ((data.drop (k * (3 * P.wb))).take (3 * P.wb)) (i * Q.bytes)) = q
  have q0 : P.get data (k * (3 * P.wb) + 0) = q 0 := by rw [← hq]; dsimp only; rw [hp 0 (by omega), Nat.zero_mul]
  have q1 : P.get data (k * (3 * P.wb) + P.wb) = q 1 := by rw [← hq]; dsimp only; rw [hp 1 (by omega), Nat.one_mul]
  have q2 : P.get data (k * (3 * P.wb) + 2 * P.wb) = q 2 := by rw [← hq]; dsimp only; rw [hp 2 (by omega)]
  rw [q0, q1, q2]
  have := round_rel hf _ (12 - k) (by omega) (by omega) _ _ (input_rel ((13 - k) % 13) (by omega) c S q h)
  dsimp only at this
  exact this

theorem blocks13 (n : Nat) (hn : 0 < n) (x : Bytes) (hx : x.length = 13 * n) : fullBlocks n x = (List.range 13).map fun k => (x.drop (k * n)).take n := by
  unfold fullBlocks
  rw [hx, Nat.mul_div_cancel _ hn]

theorem processBlock_rel {P : Pkg w} {Q : Params w} (hf : Fit P Q) (data : Bytes) (hd : data.length = P.blockSize) (c : Core w) (S : State w) (h : Rel 0 c S) :
    Rel 0 (processBlock P c data) ((fullBlocks (3 * P.wb) data).foldl (Spec.RadioGatun.inject Q) S) := by
  rw [blocks13 (3 * P.wb) (by have := hf.wb0; omega) data (by rw [hd]; unfold Pkg.blockSize; omega), List.foldl_map]
  unfold processBlock
  have : ∀ n, n ≤ 13 → Rel ((13 - n) % 13) (forLoop 0 n (turn P data) c) ((List.range n).foldl (fun S k => Spec.RadioGatun.inject Q S ((data.drop (k * (3 * P.wb))).take (3 * P.wb))) S) := by
    intro n
    induction n with
    | zero => intro _; rw [forLoop_nil _ _ _ _ (Nat.le_refl _)]; exact h
    | succ n ih =>
      intro hn
      rw [forLoop_succ _ _ _ _ (Nat.zero_le _), List.range_succ, List.foldl_append]
      have := turn_rel hf data n (by omega) _ _ (ih (by omega))
      rw [show (13 - (n + 1)) % 13 = 12 - n by omega]
      exact this
  exact this 13 (by omega)

seal xorAt in
/-- A blank round. -/
theorem blank_rel {P : Pkg w} {Q : Params w} (hf : Fit P Q) (c : Core w) (S : State w) (h : Rel 0 c S) : Rel 0 (blankTurn P c) (Spec.RadioGatun.round S) := by
  have hx : feed c.a c.b 12 = (let a := c.a
      let x := xorAt c.b 0 (a.getD 1 0)
      let x := xorAt x 4 (a.getD 2 0)
      let x := xorAt x 8 (a.getD 3 0)
      let x := xorAt x 9 (a.getD 4 0)
      let x := xorAt x 13 (a.getD 5 0)
      let x := xorAt x 17 (a.getD 6 0)
      let x := xorAt x 18 (a.getD 7 0)
      let x := xorAt x 22 (a.getD 8 0)
      let x := xorAt x 26 (a.getD 9 0)
      let x := xorAt x 27 (a.getD 10 0)
      let x := xorAt x 31 (a.getD 11 0)
      xorAt x 35 (a.getD 12 0)) := by
    simp [feed, forLoop, List.range']
  have hr := round_rel hf 0 12 (by omega) (by omega) c S h
  unfold blankTurn
  dsimp only at hx hr ⊢
  rw [← hx]
  generalize feed c.a c.b 12 = x at *
  obtain ⟨h1, h2, h3, h4⟩ := hr
  dsimp only at h1 h2 h3 h4
  refine ⟨h1, h2, ?_, ?_⟩
  · dsimp only; rw [List.length_cons, List.length_cons, List.length_cons, List.length_take, h3]; rfl
  · intro j i hj hi
    rw [h4 j i hj hi]
    dsimp only
    rw [Nat.zero_add, Nat.mod_eq_of_lt hj]
    by_cases hj0 : j = 0
    · subst hj0
      have : i = 0 ∨ i = 1 ∨ i = 2 := by omega
      rcases this with rfl | rfl | rfl <;> rfl
    · rw [show 3 * j + i = (3 * (j - 1) + i) + 1 + 1 + 1 by omega, List.getD_cons_succ, List.getD_cons_succ, List.getD_cons_succ,
        List.getD_eq_getElem?_getD, List.getD_eq_getElem?_getD, List.getElem?_take_of_lt (by omega), show 3 * ((12 + j) % 13) + i = 3 * (j - 1) + i by omega]

end Verif.RadioGatun
