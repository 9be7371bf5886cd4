import Verif.Lemmas.Hamsi3
import Mathlib.Data.List.Induction
/-
Package hamsi: Write, Sum and Reset.
-/
namespace Verif.Hamsi
open Spec.Hamsi (g Variant)

variable {c : Cfg} {v : Variant}

/-! The register `partial` -/
def shW {w : Nat} (a : BitVec w) (b : Byte) : BitVec w := (a <<< 8) ||| b.setWidth w

theorem bytes_shW {w : Nat} (a : BitVec w) (l : Bytes) : 8 * l.length ≤ w → ∀ i < l.length,
    ((l.foldl shW a) >>> (8 * (l.length - 1 - i))).setWidth 8 = l.getD i 0 := by
  induction l using List.reverseRecOn with
  | nil => intro _ i hi; simp at hi
  | append_singleton l x ih =>
    intro hw i hi
    rw [List.length_append, List.length_singleton] at hw hi
    rw [List.foldl_append, List.foldl_cons, List.foldl_nil, List.length_append, List.length_singleton]
    generalize hF : l.foldl shW a = F at *
    apply BitVec.eq_of_getLsbD_eq
    intro j hj
    unfold shW
    rw [BitVec.getLsbD_setWidth, BitVec.getLsbD_ushiftRight, BitVec.getLsbD_or, BitVec.getLsbD_shiftLeft, BitVec.getLsbD_setWidth]
    by_cases e : i = l.length
    · subst e
      rw [show 8 * (l.length + 1 - 1 - l.length) + j = j by omega]
      have e : (l ++ [x]).getD l.length 0 = x := by simp [List.getD_eq_getElem?_getD]
      rw [e]
      simp [hj, show j < w by omega]
    · have hi : i < l.length := by omega
      have ih := ih (by omega) i hi
      have e : (l ++ [x]).getD i 0 = l.getD i 0 := by simp [List.getD_eq_getElem?_getD, List.getElem?_append_left hi]
      rw [e, ← ih, BitVec.getLsbD_setWidth, BitVec.getLsbD_ushiftRight]
      have h8 : x.getLsbD (8 * (l.length + 1 - 1 - i) + j) = false := BitVec.getLsbD_of_ge _ _ (by omega)
      rw [h8, show 8 * (l.length + 1 - 1 - i) + j - 8 = 8 * (l.length - 1 - i) + j by omega]
      simp [hj, show 8 * (l.length - i) + j < w by omega, show 8 ≤ 8 * (l.length - i) + j by omega]

theorem bytesOf_fold (a : BitVec (8 * c.B)) (l : Bytes) (h : l.length = c.B) : bytesOf (l.foldl shiftIn a) = l := by
  unfold bytesOf
  apply List.ext_getElem (by simp [h])
  intro i h1 h2
  have := bytes_shW a l (by omega) i h2
  rw [List.getElem_map, List.getElem_range]
  simp only [List.getD_eq_getElem?_getD, List.getElem?_eq_getElem h2, Option.getD_some] at this
  have hw : c.B - 1 - i = l.length - 1 - i := by rw [h]
  rw [← this, hw]; rfl

theorem fill_eq : ∀ (p : Bytes) (a : BitVec (8 * c.B)) (n : Nat), n ≤ c.B → fill a n p = ((p.take (c.B - n)).foldl shiftIn a, min c.B (n + p.length), p.drop (c.B - n))
  | [], a, n, h => by simp [fill]; omega
  | b :: p, a, n, h => by
    unfold fill
    by_cases e : n < c.B
    · rw [if_pos e, fill_eq p _ (n + 1) (by omega), show c.B - n = (c.B - (n + 1)) + 1 by omega, List.take_succ_cons, List.drop_succ_cons]
      refine Prod.ext rfl (Prod.ext ?_ rfl)
      show min c.B (n + 1 + p.length) = min c.B (n + (p.length + 1))
      congr 1; omega
    · have : c.B - n = 0 := by omega
      rw [if_neg e, this]
      refine Prod.ext rfl (Prod.ext ?_ rfl)
      show n = min c.B (n + (p.length + 1))
      omega

abbrev comp (v : Variant) := Spec.Hamsi.compress v Spec.Hamsi.alphaN v.rounds

structure Rep (c : Cfg) (v : Variant) (iv : List U32) (hs : Nat) (d : Digest c) (m : Bytes) : Prop where
  hhs : d.hs = hs
  hiv : d.initVal = iv
  st : d.s = (fullBlocks c.B m).foldl (comp v) iv
  pa : ∃ a, d.partialW = (restBlock c.B m).foldl shiftIn a
  pl : d.partialLen = m.length % c.B
  ln : d.len = BitVec.ofNat 64 (8 * m.length)

variable {iv : List U32} {hs : Nat}

theorem reset_rep (d : Digest c) (h1 : d.hs = hs) (h2 : d.initVal = iv) : Rep c v iv hs (reset d) [] := by
  refine ⟨h1, h2, ?_, ⟨0, ?_⟩, ?_, rfl⟩
  · rw [fullBlocks_nil]; exact h2
  · simp [restBlock, reset]
  · simp [reset]

theorem rest_append (B : Nat) (hB : 0 < B) (m p : Bytes) : restBlock B (m ++ p) = restBlock B (restBlock B m ++ p) := by
  have hfl : (fullBlocks B m).flatten.length % B = 0 := by
    have := congrArg List.length (fullBlocks_flatten_append_rest B m)
    rw [List.length_append, restBlock_length] at this
    have h2 := Nat.mod_add_div m.length B
    have : (fullBlocks B m).flatten.length = B * (m.length / B) := by omega
    rw [this]; simp
  conv => lhs; rw [← fullBlocks_flatten_append_rest B m, List.append_assoc]
  rw [restBlock_append B _ _ hB hfl]

theorem len_eq (n k : Nat) : BitVec.ofNat 64 (8 * n) + (BitVec.ofNat 64 k) <<< 3 = BitVec.ofNat 64 (8 * (n + k)) := by
  apply BitVec.eq_of_toNat_eq
  simp only [BitVec.toNat_add, BitVec.toNat_ofNat, BitVec.toNat_shiftLeft, Nat.shiftLeft_eq]
  simp only [Nat.reducePow]
  omega

theorem blocks_loop (ok : Computes c v) (q : Bytes) (s : List U32) :
    forLoop 0 (q.length / c.B) (fun s i => process c s ((q.drop (c.B * i)).take c.B)) s = (fullBlocks c.B q).foldl (comp v) s := by
  unfold forLoop fullBlocks
  rw [List.foldl_map, List.range_eq_range', Nat.sub_zero]
  congr 1
  funext s i
  rw [ok.proc, Nat.mul_comm]

theorem writeRest_rep (ok : Computes c v) (d : Digest c) (m q : Bytes) (h1 : d.hs = hs) (h2 : d.initVal = iv) (hm : m.length % c.B = 0)
    (hs' : d.s = (fullBlocks c.B m).foldl (comp v) iv) (hl : d.len = BitVec.ofNat 64 (8 * (m ++ q).length)) : Rep c v iv hs (writeRest d q) (m ++ q) := by
  have hB : 0 < c.B := by rw [ok.hB]; exact ok.pos
  refine ⟨h1, h2, ?_, ⟨d.partialW, ?_⟩, ?_, hl⟩
  · show forLoop 0 _ _ d.s = _
    rw [blocks_loop ok, hs', fullBlocks_append c.B m q hB hm, List.foldl_append]
  · rw [restBlock_append c.B m q hB hm]; rfl
  · show q.length - q.length / c.B * c.B = _
    rw [List.length_append, Nat.add_mod, hm, Nat.zero_add, Nat.mod_mod, Nat.mul_comm]
    have := Nat.mod_add_div q.length c.B
    omega

theorem write_rep (ok : Computes c v) (d : Digest c) (m p : Bytes) (h : Rep c v iv hs d m) :
    (write d p).2 = p.length ∧ Rep c v iv hs (write d p).1 (m ++ p) := by
  have hB : 0 < c.B := by rw [ok.hB]; exact ok.pos
  have hn : m.length % c.B < c.B := Nat.mod_lt _ hB
  have hrl := restBlock_length c.B m
  have hlen : d.len + (BitVec.ofNat 64 p.length) <<< 3 = BitVec.ofNat 64 (8 * (m ++ p).length) := by
    rw [h.ln, len_eq, List.length_append]
  unfold write
  dsimp only
  by_cases c0 : d.partialLen = 0
  · rw [if_neg (by simp [c0])]
    refine ⟨rfl, writeRest_rep ok _ m p h.hhs h.hiv ?_ h.st hlen⟩
    rw [← h.pl, c0]
  · rw [if_pos c0]
    obtain ⟨a, ha⟩ := h.pa
    rw [ha, h.pl, fill_eq _ _ _ (by omega)]
    rw [h.pl] at c0
    dsimp only
    by_cases cc : m.length % c.B + p.length < c.B
    · rw [if_pos (by omega)]
      have hr : restBlock c.B (m ++ p) = restBlock c.B m ++ p := by
        rw [rest_append c.B hB, restBlock_lt _ _ (by rw [List.length_append]; omega)]
      refine ⟨rfl, h.hhs, h.hiv, ?_, ⟨a, ?_⟩, ?_, hlen⟩
      · rw [fullBlocks_append_rest c.B m p hB, fullBlocks_lt c.B (_ ++ p) (by rw [List.length_append]; omega), List.append_nil]; exact h.st
      · rw [hr, List.foldl_append]
        show (p.take _).foldl shiftIn _ = _
        rw [List.take_of_length_le (by omega)]
      · show min c.B _ = _
        have := restBlock_length c.B (m ++ p)
        rw [hr, List.length_append, hrl] at this
        omega
    · rw [if_neg (by omega)]
      have hb : (restBlock c.B m ++ p.take (c.B - m.length % c.B)).length = c.B := by rw [List.length_append, List.length_take]; omega
      have hbytes : bytesOf ((p.take (c.B - m.length % c.B)).foldl shiftIn ((restBlock c.B m).foldl shiftIn a)) = restBlock c.B m ++ p.take (c.B - m.length % c.B) := by
        rw [← List.foldl_append]; exact bytesOf_fold _ _ hb
      have happ : m ++ p = (m ++ p.take (c.B - m.length % c.B)) ++ p.drop (c.B - m.length % c.B) := by rw [List.append_assoc, List.take_append_drop]
      refine ⟨rfl, ?_⟩
      rw [happ]
      refine writeRest_rep ok _ _ _ h.hhs h.hiv ?_ ?_ ?_
      · have h1 := congrArg List.length (fullBlocks_flatten_append_rest c.B m)
        have h2 := Nat.mod_add_div m.length c.B
        rw [List.length_append, List.length_take]
        rw [show m.length + min (c.B - m.length % c.B) p.length = c.B * (m.length / c.B + 1) by rw [Nat.mul_add]; omega]
        simp
      · show process c d.s (bytesOf _) = _
        rw [hbytes, ok.proc, fullBlocks_append_rest c.B m _ hB, fullBlocks_one c.B _ hB hb, List.foldl_append, ← h.st]
        rfl
      · rw [← happ]; exact hlen

theorem zeroFill_rep (ok : Computes c v) : ∀ (n : Nat) (d : Digest c) (m : Bytes), Rep c v iv hs d m → (c.B - m.length % c.B) % c.B < n →
    ∃ d', zeroFill n d = some d' ∧ Rep c v iv hs d' (m ++ zeros ((c.B - m.length % c.B) % c.B))
  | 0, d, m, _, h => absurd h (Nat.not_lt_zero _)
  | n + 1, d, m, hr, h => by
    have hB : 0 < c.B := by rw [ok.hB]; exact ok.pos
    have hn : m.length % c.B < c.B := Nat.mod_lt _ hB
    unfold zeroFill
    by_cases c0 : d.partialLen = 0
    · rw [if_neg (by simp [c0])]
      refine ⟨d, rfl, ?_⟩
      rw [hr.pl] at c0
      rw [c0, Nat.sub_zero, Nat.mod_self]
      show Rep c v iv hs d (m ++ [])
      rw [List.append_nil]; exact hr
    · rw [if_pos c0]
      rw [hr.pl] at c0
      have hw := (write_rep ok d m [0] hr).2
      have e1 : (c.B - m.length % c.B) % c.B = c.B - m.length % c.B := Nat.mod_eq_of_lt (by omega)
      have e2 : (c.B - (m ++ [(0 : Byte)]).length % c.B) % c.B = c.B - m.length % c.B - 1 := by
        rw [List.length_append, List.length_singleton]
        by_cases e : m.length % c.B + 1 = c.B
        · have : (m.length + 1) % c.B = 0 := by
            have h2 := Nat.mod_add_div m.length c.B
            rw [show m.length + 1 = c.B * (m.length / c.B + 1) by rw [Nat.mul_add]; omega]; simp
          rw [this, Nat.sub_zero, Nat.mod_self]; omega
        · have : (m.length + 1) % c.B = m.length % c.B + 1 := by
            rw [← Nat.mod_add_mod]; exact Nat.mod_eq_of_lt (by omega)
          rw [this, Nat.mod_eq_of_lt (by omega)]; omega
      obtain ⟨d', h1, h2⟩ := zeroFill_rep ok n (write d [0]).1 (m ++ [0]) hw (by rw [e2]; omega)
      refine ⟨d', h1, ?_⟩
      rw [e2, List.append_assoc] at h2
      rw [e1, show c.B - m.length % c.B = 1 + (c.B - m.length % c.B - 1) by omega, zeros_add]
      exact h2

theorem countBytes_eq (n : U64) : countBytes n = be64 n := by
  have e : ∀ j, (n >>> j).setWidth 8 = n.extractLsb' j 8 := by
    intro j; ext i hi
    simp [BitVec.getLsbD_ushiftRight]
  show [(n >>> 56).setWidth 8, (n >>> 48).setWidth 8, (n >>> 40).setWidth 8, (n >>> 32).setWidth 8, (n >>> 24).setWidth 8, (n >>> 16).setWidth 8,
    (n >>> 8).setWidth 8, (n >>> 0).setWidth 8] = _
  simp only [e]; rfl

def outStep (w : Nat → U32) (st : U32 × Nat × Bytes) (i : Nat) : U32 × Nat × Bytes :=
  let st := if i &&& 3 = 0 then (w st.2.1, st.2.1 + 1, st.2.2) else st
  (st.1 <<< 8, st.2.1, st.2.2 ++ [(st.1 >>> 24).setWidth 8])

theorem out_loop (w : Nat → U32) : ∀ k, ∃ x, (List.range' 0 (4 * k)).foldl (outStep w) (0, 0, []) = (x, k, (List.range k).flatMap fun j => be32 (w j))
  | 0 => ⟨0, rfl⟩
  | k + 1 => by
    obtain ⟨x, ih⟩ := out_loop w k
    have a0 : (4 * k) &&& 3 = 0 := by rw [show (3 : Nat) = 2 ^ 2 - 1 from rfl, Nat.and_two_pow_sub_one_eq_mod]; omega
    have a1 : ∀ j, 0 < j → j < 4 → ¬ (4 * k + j) &&& 3 = 0 := by
      intro j h1 h2; rw [show (3 : Nat) = 2 ^ 2 - 1 from rfl, Nat.and_two_pow_sub_one_eq_mod]; omega
    rw [show 4 * (k + 1) = 4 * k + 4 by omega, ← List.range'_append_1 , List.foldl_append, ih, List.range_succ, List.flatMap_append]
    show ∃ y, outStep w (outStep w (outStep w (outStep w _ (0 + 4 * k)) (0 + 4 * k + 1)) (0 + 4 * k + 1 + 1)) (0 + 4 * k + 1 + 1 + 1) = _
    rw [Nat.zero_add]
    unfold outStep
    simp only [a0, if_true, Nat.add_assoc, a1 1 (by omega) (by omega), a1 (1 + 1) (by omega) (by omega), a1 (1 + (1 + 1)) (by omega) (by omega), if_false]
    refine ⟨_, Prod.ext rfl (Prod.ext rfl ?_)⟩
    simp only [List.append_assoc, List.flatMap_cons, List.flatMap_nil, List.append_nil, be32, List.cons_append, List.nil_append]
    congr 1
    have e : ∀ (y : U32) (n : Nat), n ≤ 24 → (y <<< n >>> 24).setWidth 8 = y.extractLsb' (24 - n) 8 := by
      intro y n hn
      apply BitVec.eq_of_getLsbD_eq
      intro i hi
      rw [BitVec.getLsbD_setWidth, BitVec.getLsbD_ushiftRight, BitVec.getLsbD_shiftLeft, BitVec.getLsbD_extractLsb']
      rw [show 24 + i - n = 24 - n + i by omega]
      simp [hi, show 24 + i < 32 by omega, show ¬ 24 + i < n by omega]
    have e0 := e (w k) 0 (by omega)
    have e1 := e (w k) 8 (by omega)
    have e2 := e (w k) 16 (by omega)
    have e3 := e (w k) 24 (by omega)
    rw [BitVec.shiftLeft_zero] at e0
    rw [e0, e1, ← BitVec.shiftLeft_add, e2, ← BitVec.shiftLeft_add, e3]

theorem outLoop_eq (w : Nat → U32) (k : Nat) : outLoop w (4 * k) = (List.range k).flatMap fun j => be32 (w j) := by
  obtain ⟨x, e⟩ := out_loop w k
  exact congrArg (fun t => t.2.2) e

theorem padded_eq (v : Variant) (hB : v.B = 4 ∨ v.B = 8) (m : Bytes) :
    Spec.Hamsi.padded v m = fullBlocks v.B (mdPad v.B 0x80 [] m) ++ fullBlocks v.B (be64 (BitVec.ofNat 64 (8 * m.length))) := by
  unfold Spec.Hamsi.padded
  have h0 : 0 < v.B := by omega
  exact fullBlocks_append v.B _ _ h0 (mdPad_length v.B 0x80 [] m h0)

structure Good (c : Cfg) (v : Variant) (iv : List U32) (hs : Nat) : Prop where
  ok : Computes c v
  b : v.B = 4 ∨ v.B = 8
  hiv : v.iv = iv
  hsz : hs = 4 * v.out.length
  out : (List.range v.out.length).map (fun j => if c.B = 4 then j else (if hs = 48 then HOFF384 else HOFF512).getD j 0) = v.out

theorem flat_out (l : List Nat) (f : Nat → Nat) (F : Nat → Bytes) (n : Nat) (h : (List.range n).map f = l) : (List.range n).flatMap (fun j => F (f j)) = l.flatMap F := by
  rw [← h, List.flatMap_map]

theorem checkSum_eq (gd : Good c v iv hs) (d : Digest c) (m : Bytes) (h : Rep c v iv hs d m) : checkSum d = some (Spec.Hamsi.hash v m) := by
  have hB := gd.ok.hB
  have h0 : 0 < c.B := by rw [hB]; exact gd.ok.pos
  have hw := (write_rep gd.ok d m [0x80] h).2
  obtain ⟨d', hz, hr⟩ := zeroFill_rep gd.ok (c.B + 1) _ _ hw (Nat.lt_succ_of_lt (Nat.mod_lt _ h0))
  have hmd : m ++ [0x80] ++ zeros ((c.B - (m ++ [(0x80 : Byte)]).length % c.B) % c.B) = mdPad v.B 0x80 [] m := by
    unfold mdPad
    rw [hB, List.append_assoc, List.length_append]; simp
  rw [hmd] at hr
  have hst := hr.st
  rw [hB] at hst
  have hp := padded_eq v gd.b m
  unfold checkSum
  dsimp only
  rw [hz, h.ln, countBytes_eq]
  show (if c.B = 4 then _ else _) = _
  unfold Spec.Hamsi.hash
  have hl : (be64 (BitVec.ofNat 64 (8 * m.length))).length = 8 := rfl
  generalize be64 (BitVec.ofNat 64 (8 * m.length)) = e at *
  have ho := gd.out
  rcases gd.b with b4 | b8
  · have c4 : c.B = 4 := by rw [hB, b4]
    simp only [c4, if_true] at ho
    rw [if_pos c4, if_pos c4, c4, hr.hhs, gd.hsz, outLoop_eq]
    rw [b4] at hst hp
    have e2 : fullBlocks 4 e = [e.take 4, e.drop 4] := by
      conv => lhs; rw [← List.take_append_drop 4 e]
      exact fullBlocks_two 4 _ _ (by omega) (by rw [List.length_take, hl]; rfl) (by rw [List.length_drop, hl])
    rw [e2] at hp
    rw [hp]
    dsimp only
    rw [gd.ok.procF, gd.ok.proc, hst]
    rw [show fullBlocks 4 (mdPad 4 0x80 [] m) ++ [e.take 4, e.drop 4] = (fullBlocks 4 (mdPad 4 0x80 [] m) ++ [e.take 4]) ++ [e.drop 4] by simp,
      List.dropLast_concat, List.foldl_append, gd.hiv]
    simp only [List.getLastD_concat, List.foldl_cons, List.foldl_nil]
    congr 1
    exact flat_out _ (fun j => j) (fun i => be32 (g _ i)) _ ho
  · have c8 : c.B = 8 := by rw [hB, b8]
    have n4 : ¬ c.B = 4 := by omega
    rw [if_neg n4, if_neg n4]
    simp only [n4, if_false] at ho
    rw [b8] at hst hp
    rw [fullBlocks_one 8 e (by omega) hl] at hp
    rw [hp, List.dropLast_concat, c8]
    dsimp only
    rw [gd.ok.procF, hst, hr.hhs, gd.hiv]
    simp only [List.getLastD_concat, Nat.sub_self, List.drop_zero]
    congr 1
    have hq : outLoop (fun j => g (Spec.Hamsi.compress v Spec.Hamsi.alphaF v.roundsF ((fullBlocks 8 (mdPad 8 0x80 [] m)).foldl (comp v) iv) e) ((if hs = 48 then HOFF384 else HOFF512).getD j 0)) hs =
        v.out.flatMap fun i => be32 (g (Spec.Hamsi.compress v Spec.Hamsi.alphaF v.roundsF ((fullBlocks 8 (mdPad 8 0x80 [] m)).foldl (comp v) iv) e) i) := by
      conv => lhs; arg 2; rw [gd.hsz]
      rw [outLoop_eq]
      exact flat_out _ _ (fun i => be32 (g _ i)) _ ho
    exact hq

theorem hash_length (v : Variant) (m : Bytes) : (Spec.Hamsi.hash v m).length = 4 * v.out.length := by
  unfold Spec.Hamsi.hash
  dsimp only
  generalize Spec.Hamsi.compress v Spec.Hamsi.alphaF v.roundsF _ _ = s
  induction v.out with
  | nil => rfl
  | cons a l ih => rw [List.flatMap_cons, List.length_append, ih, List.length_cons, be32_length]; omega

theorem refines (gd : Good c v iv hs) : Refines (impl c) (newDigest c iv hs) { H := Spec.Hamsi.hash v, size := hs, blockSize := c.blockSize } := by
  refine refines_of_sim (impl c) _ _ (Rep c v iv hs) ?_ ?_ ?_ ?_ ?_ ?_
  · exact reset_rep _ rfl rfl
  · intro s m p h
    obtain ⟨e, r⟩ := write_rep gd.ok s m p h
    exact ⟨(write s p).1, by show some (write s p) = _; rw [← e], r⟩
  · intro s m b h
    refine ⟨s, ?_, h⟩
    show (checkSum s).map (fun h => (s, b ++ h)) = _
    rw [checkSum_eq gd s m h]; rfl
  · intro s m h
    exact reset_rep _ h.hhs h.hiv
  · intro s m h
    exact h.hhs
  · intro s m h
    rfl

theorem sumOf_eq (gd : Good c v iv hs) (m : Bytes) : sumOf (newDigest c iv hs) hs m = some (Spec.Hamsi.hash v m) := by
  have h0 : Rep c v iv hs (newDigest c iv hs) [] := reset_rep _ rfl rfl
  have h1 := (write_rep gd.ok _ [] m h0).2
  unfold sumOf
  rw [checkSum_eq gd _ _ h1, List.nil_append, Option.map_some, goCopy_zero_all _ _ (by rw [zeros_length, hash_length, gd.hsz])]

theorem good224 : Good cfg256 (Spec.Hamsi.small Spec.Hamsi.iv224 [0, 1, 2, 3, 4, 5, 6]) iv224 28 :=
  ⟨computes256 _ _, Or.inl rfl, by decide +kernel, rfl, by decide +kernel⟩
theorem good256 : Good cfg256 (Spec.Hamsi.small Spec.Hamsi.iv256 [0, 1, 2, 3, 4, 5, 6, 7]) iv256 32 :=
  ⟨computes256 _ _, Or.inl rfl, by decide +kernel, rfl, by decide +kernel⟩
theorem good384 : Good cfg512 (Spec.Hamsi.large Spec.Hamsi.iv384 [0, 1, 3, 4, 5, 6, 8, 9, 10, 12, 13, 15]) iv384 48 :=
  ⟨computes512 _ _, Or.inr rfl, by decide +kernel, rfl, by decide +kernel⟩
theorem good512 : Good cfg512 (Spec.Hamsi.large Spec.Hamsi.iv512 [0, 1, 2, 3, 4, 5, 6, 7, 8, 9, 10, 11, 12, 13, 14, 15]) iv512 64 :=
  ⟨computes512 _ _, Or.inr rfl, by decide +kernel, rfl, by decide +kernel⟩

end Verif.Hamsi
