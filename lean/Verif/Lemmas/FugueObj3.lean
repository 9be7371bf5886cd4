import Verif.Lemmas.FugueObj2
/-
Package fugue: Write, Sum and Reset.
-/
namespace Verif.Fugue
open Spec.Fugue (Variant absorb)

variable {hs : Nat} {iv : List U32} {v : Variant} {sh k : Nat}

/-- The bytes shifted into a word. -/
def pw (a : U32) (l : Bytes) : U32 := l.foldl (fun a b => (a <<< 8) ||| b.setWidth 32) a

theorem pw4 (l : Bytes) (h : l.length = 4) : pw 0 l = getBE32 l := by
  match l, h with
  | [a, b, c, d], _ =>
    show ((((((((0 : U32) <<< 8) ||| a.setWidth 32) <<< 8) ||| b.setWidth 32) <<< 8) ||| c.setWidth 32) <<< 8) ||| d.setWidth 32 = a ++ b ++ c ++ d
    apply BitVec.eq_of_getLsbD_eq
    intro i hi
    rw [BitVec.getLsbD_append, BitVec.getLsbD_append, BitVec.getLsbD_append]
    interval_cases i <;> simp

theorem fill_eq : ∀ (p : Bytes) (a : U32) (n : Nat), n ≤ 4 → fill a n p = (pw a (p.take (4 - n)), min 4 (n + p.length), p.drop (4 - n))
  | [], a, n, h => by simp [fill, pw]; omega
  | b :: p, a, n, h => by
    unfold fill
    by_cases c : n < 4
    · rw [if_pos c, fill_eq p _ (n + 1) (by omega), show 4 - n = (4 - (n + 1)) + 1 by omega, List.take_succ_cons, List.drop_succ_cons]
      refine Prod.ext rfl (Prod.ext ?_ rfl)
      show min 4 (n + 1 + p.length) = min 4 (n + (p.length + 1))
      congr 1; omega
    · have : n = 4 := by omega
      subst this
      rw [if_neg c]
      refine Prod.ext rfl (Prod.ext ?_ rfl)
      show 4 = min 4 (4 + (p.length + 1))
      omega

structure Rep (hs : Nat) (iv : List U32) (v : Variant) (sh k : Nat) (d : Digest) (m : Bytes) : Prop where
  hhs : d.hs = hs
  hiv : d.initVal = iv
  ht : d.tmpS.length = 36
  hr : d.rshift < k
  st : Rel v.cols (sh * d.rshift) d.s (absorb v m)
  pa : d.partialW = pw 0 (restBlock 4 m)
  pl : d.partialLen = m.length % 4
  ln : d.len = BitVec.ofNat 64 (8 * m.length)

theorem reset_rep (ok : Ok hs iv v sh k) (d : Digest) (h1 : d.hs = hs) (h2 : d.initVal = iv) : Rep hs iv v sh k (reset d) [] := by
  refine ⟨h1, h2, List.length_replicate, ok.kpos, ?_, rfl, rfl, rfl⟩
  show Rel v.cols (sh * 0) (goCopy _ (if d.hs ≤ 32 then 30 - d.initVal.length else 36 - d.initVal.length) d.initVal) _
  rw [h1, h2]
  exact ok.init

theorem words_eq (q : Bytes) : bufWords q (q.length / 4) = (fullBlocks 4 q).map (getBE32 ·) := by
  unfold bufWords fullBlocks
  rw [List.map_map]
  apply List.map_congr_left
  intro i hi
  have hi := List.mem_range.1 hi
  show _ = getBE32 ((q.drop (i * 4)).take 4)
  rw [Nat.mul_comm i 4]
  unfold getBE32 at8
  simp [List.getD_eq_getElem?_getD, List.getElem?_take, List.getElem?_drop]

theorem absorb_append (m p : Bytes) : absorb v (m ++ p) = ((fullBlocks 4 (restBlock 4 m ++ p)).map (getBE32 ·)).foldl (R v) (absorb v m) := by
  rw [absorb_eq, fullBlocks_append_rest 4 m p (by omega), List.map_append, List.foldl_append, ← absorb_eq]

theorem rest_append (m p : Bytes) : restBlock 4 (m ++ p) = restBlock 4 (restBlock 4 m ++ p) := by
  have hfl : (fullBlocks 4 m).flatten.length % 4 = 0 := by
    have := congrArg List.length (fullBlocks_flatten_append_rest 4 m)
    rw [List.length_append, restBlock_length] at this
    omega
  conv => lhs; rw [← fullBlocks_flatten_append_rest 4 m, List.append_assoc]
  rw [restBlock_append 4 _ _ (by omega) hfl]

theorem len_eq (n k : Nat) : BitVec.ofNat 64 (8 * n) + (BitVec.ofNat 64 k) <<< 3 = BitVec.ofNat 64 (8 * (n + k)) := by
  apply BitVec.eq_of_toNat_eq
  simp only [BitVec.toNat_add, BitVec.toNat_ofNat, BitVec.toNat_shiftLeft, Nat.shiftLeft_eq]
  simp only [Nat.reducePow]
  omega

theorem write_rep (ok : Ok hs iv v sh k) (d : Digest) (m p : Bytes) (h : Rep hs iv v sh k d m) :
    (write d p).2 = p.length ∧ Rep hs iv v sh k (write d p).1 (m ++ p) := by
  have hn : m.length % 4 < 4 := Nat.mod_lt _ (by omega)
  have hrl := restBlock_length 4 m
  unfold write
  dsimp only
  rw [h.pa, h.pl, fill_eq _ _ _ (by omega)]
  dsimp only
  have hlen : d.len + (BitVec.ofNat 64 p.length) <<< 3 = BitVec.ofNat 64 (8 * (m ++ p).length) := by
    rw [h.ln, len_eq, List.length_append]
  by_cases c : m.length % 4 + p.length < 4
  · rw [if_neg (by rw [List.length_drop]; omega)]
    refine ⟨rfl, h.hhs, h.hiv, h.ht, h.hr, ?_, ?_, ?_, hlen⟩
    · rw [absorb_append, fullBlocks_lt 4 _ (by rw [List.length_append]; omega)]; exact h.st
    · rw [rest_append, restBlock_lt 4 (restBlock 4 m ++ p) (by rw [List.length_append]; omega)]
      show pw (pw 0 _) _ = _
      rw [List.take_of_length_le (by omega)]
      exact (List.foldl_append ..).symm
    · show min 4 _ = _; rw [List.length_append]; omega
  · have hb : (restBlock 4 m ++ p.take (4 - m.length % 4)).length = 4 := by rw [List.length_append, List.length_take]; omega
    have hsplit : restBlock 4 m ++ p = (restBlock 4 m ++ p.take (4 - m.length % 4)) ++ p.drop (4 - m.length % 4) := by
      rw [List.append_assoc, List.take_append_drop]
    have hpw : pw (pw 0 (restBlock 4 m)) (p.take (4 - m.length % 4)) = getBE32 (restBlock 4 m ++ p.take (4 - m.length % 4)) := by
      rw [← pw4 _ hb]; exact (List.foldl_append ..).symm
    rw [if_pos (by left; omega), hpw]
    generalize hq : p.drop (4 - m.length % 4) = q
    rw [hq] at hsplit
    obtain ⟨S, r, e, hr, hR⟩ := ok.proc { d with len := d.len + (BitVec.ofNat 64 p.length) <<< 3, partialW := getBE32 (restBlock 4 m ++ p.take (4 - m.length % 4)), partialLen := min 4 (m.length % 4 + p.length) }
      (getBE32 (restBlock 4 m ++ p.take (4 - m.length % 4))) q (q.length / 4 * 4 / 4) (absorb v m) h.hhs h.hr h.st
    rw [e]
    rw [Nat.mul_div_cancel _ (by omega : 0 < 4), words_eq] at hR
    refine ⟨rfl, h.hhs, h.hiv, h.ht, hr, ?_, ?_, ?_, hlen⟩
    · rw [absorb_append, hsplit, fullBlocks_cons 4 _ _ (by omega) hb]
      exact hR
    · rw [rest_append, hsplit, restBlock_append 4 _ _ (by omega) (by rw [hb])]
      rfl
    · show q.length - q.length / 4 * 4 = _
      rw [List.length_append, ← hq, List.length_drop]; omega

theorem absorb_word (m : Bytes) (w : U32) (h : m.length % 4 = 0) : absorb v (m ++ be32 w) = R v (absorb v m) w := by
  have h0 : restBlock 4 m = [] := List.eq_nil_of_length_eq_zero (by rw [restBlock_length, h])
  rw [absorb_append, h0, List.nil_append, fullBlocks_one 4 _ (by omega) (be32_length w), List.map_cons, List.map_nil, List.foldl_cons, List.foldl_nil]
  have := getBE32_be32 w []
  rw [List.append_nil] at this
  rw [this]

theorem shiftUp_eq (l : Bytes) (h : l.length ≤ 4) : shiftUp (pw 0 l) l.length = pw 0 (l ++ zeros (4 - l.length)) := by
  have z : ∀ x : U32, (x <<< 8) ||| (0#8).setWidth 32 = x <<< 8 := fun x => by simp
  unfold shiftUp
  match l, h with
  | [], _ => rfl
  | [a], _ => simp only [forLoop, pw, zeros, List.length, List.replicate, List.range', List.foldl, List.cons_append, List.nil_append, z]
  | [a, b], _ => simp only [forLoop, pw, zeros, List.length, List.replicate, List.range', List.foldl, List.cons_append, List.nil_append, z]
  | [a, b, c], _ => simp only [forLoop, pw, zeros, List.length, List.replicate, List.range', List.foldl, List.cons_append, List.nil_append, z]
  | [a, b, c, e], _ => rfl

theorem be64_split (x : U64) : be64 x = be32 ((x >>> 32).setWidth 32) ++ be32 (x.setWidth 32) := by
  have e1 : ∀ j, j ≤ 24 → ((x >>> 32).setWidth 32).extractLsb' j 8 = x.extractLsb' (32 + j) 8 := by
    intro j hj; ext i hi
    simp only [BitVec.getElem_extractLsb', BitVec.getLsbD_setWidth, BitVec.getLsbD_ushiftRight]
    simp only [show j + i < 32 by omega, decide_true, Bool.true_and]
    congr 1; omega
  have e2 : ∀ j, j ≤ 24 → (x.setWidth 32).extractLsb' j 8 = x.extractLsb' j 8 := by
    intro j hj; ext i hi
    simp only [BitVec.getElem_extractLsb', BitVec.getLsbD_setWidth]
    simp only [show j + i < 32 by omega, decide_true, Bool.true_and]
  unfold be32 be64
  rw [e1 24 (by omega), e1 16 (by omega), e1 8 (by omega), e1 0 (by omega), e2 24 (by omega), e2 16 (by omega), e2 8 (by omega), e2 0 (by omega)]
  rfl

theorem checkSum_eq (ok : Ok hs iv v sh k) (d : Digest) (m : Bytes) (h : Rep hs iv v sh k d m) : checkSum d = Spec.Fugue.hash v m := by
  have hn : m.length % 4 < 4 := Nat.mod_lt _ (by omega)
  have hrl := restBlock_length 4 m
  unfold checkSum
  dsimp only
  generalize hd1 : (if d.partialLen ≠ 0 then process { d with partialW := shiftUp d.partialW d.partialLen, partialLen := 4 } (shiftUp d.partialW d.partialLen) [] 0 else d) = d1
  have h1 : d1.hs = hs ∧ d1.tmpS.length = 36 ∧ d1.rshift < k ∧ d1.len = BitVec.ofNat 64 (8 * m.length) ∧
      Rel v.cols (sh * d1.rshift) d1.s (absorb v (m ++ zeros ((4 - m.length % 4) % 4))) := by
    rw [← hd1]
    by_cases c : d.partialLen = 0
    · rw [if_neg (by simp [c])]
      refine ⟨h.hhs, h.ht, h.hr, h.ln, ?_⟩
      rw [h.pl] at c
      rw [c]
      show Rel _ _ _ (absorb v (m ++ []))
      rw [List.append_nil]; exact h.st
    · rw [if_pos c]
      obtain ⟨S, r, e, hr, hR⟩ := ok.proc { d with partialW := shiftUp d.partialW d.partialLen, partialLen := 4 } (shiftUp d.partialW d.partialLen) [] 0 (absorb v m) h.hhs h.hr h.st
      rw [e]
      refine ⟨h.hhs, h.ht, hr, h.ln, ?_⟩
      rw [h.pl] at c
      have hz : (4 - m.length % 4) % 4 = 4 - m.length % 4 := Nat.mod_eq_of_lt (by omega)
      have hl : (restBlock 4 m ++ zeros (4 - m.length % 4)).length = 4 := by rw [List.length_append, zeros_length]; omega
      rw [absorb_append, hz, fullBlocks_one 4 _ (by omega) hl, List.map_cons, List.map_nil, ← pw4 _ hl]
      have es : shiftUp d.partialW d.partialLen = pw 0 (restBlock 4 m ++ zeros (4 - m.length % 4)) := by
        rw [h.pa, h.pl, ← hrl]; exact shiftUp_eq _ (by omega)
      rw [es] at hR
      exact hR
  obtain ⟨a1, a2, a3, a4, a5⟩ := h1
  have hm4 : (m ++ zeros ((4 - m.length % 4) % 4)).length % 4 = 0 := by rw [List.length_append, zeros_length]; omega
  obtain ⟨S2, r2, e2, hr2, hR2⟩ := ok.proc d1 ((d1.len >>> 32).setWidth 32) [] 0 _ a1 a3 a5
  rw [e2]
  obtain ⟨S3, r3, e3, hr3, hR3⟩ := ok.proc { d1 with s := S2, rshift := r2 } (d1.len.setWidth 32) [] 0 _ a1 hr2 hR2
  rw [e3, ok.fin { d1 with s := S3, rshift := r3 } _ a1 a2 hR3]
  unfold Spec.Fugue.hash
  have : absorb v (Spec.Fugue.pad m) = R v (R v (absorb v (m ++ zeros ((4 - m.length % 4) % 4))) ((d1.len >>> 32).setWidth 32)) (d1.len.setWidth 32) := by
    unfold Spec.Fugue.pad
    rw [← a4, be64_split, ← List.append_assoc, absorb_word _ _ (by rw [List.length_append, be32_length]; omega), absorb_word _ _ hm4]
  rw [this]
  rfl

theorem refines (ok : Ok hs iv v sh k) : Refines impl (newDigest iv hs) { H := Spec.Fugue.hash v, size := hs, blockSize := 4 } := by
  refine refines_of_sim impl _ _ (Rep hs iv v sh k) ?_ ?_ ?_ ?_ ?_ ?_
  · exact reset_rep ok _ rfl rfl
  · intro s m p h
    obtain ⟨e, r⟩ := write_rep ok s m p h
    exact ⟨(write s p).1, by show some (write s p) = _; rw [← e], r⟩
  · intro s m b h
    refine ⟨s, ?_, h⟩
    show some (s, b ++ checkSum s) = _
    rw [checkSum_eq ok s m h]
  · intro s m h; exact reset_rep ok s h.hhs h.hiv
  · intro s m h; exact h.hhs
  · intro s m h; rfl

theorem hash_length (v : Variant) (m : Bytes) : (Spec.Fugue.hash v m).length = 4 * v.out.length := by
  unfold Spec.Fugue.hash
  generalize Spec.Fugue.col (v.G (absorb v (Spec.Fugue.pad m))) = f
  induction v.out with
  | nil => rfl
  | cons a l ih => rw [List.flatMap_cons, List.length_append, ih, List.length_cons, be32_length]; omega

theorem sumOf_eq (ok : Ok hs iv v sh k) (hl : 4 * v.out.length = hs) (m : Bytes) : sumOf (newDigest iv hs) hs m = Spec.Fugue.hash v m := by
  have h0 : Rep hs iv v sh k (newDigest iv hs) [] := reset_rep ok _ rfl rfl
  have h1 := (write_rep ok _ [] m h0).2
  unfold sumOf
  rw [checkSum_eq ok _ _ h1, List.nil_append, goCopy_zero_all _ _ (by rw [zeros_length, hash_length, hl])]

end Verif.Fugue
