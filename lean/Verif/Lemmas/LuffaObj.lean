import Verif.Lemmas.Luffa
import Verif.BufferX
/-
The digest object of package luffa.
-/
namespace Verif.Luffa
open Spec.Luffa (round words total)

/-- What the object needs of a configuration. -/
structure Ok (c : Cfg) : Prop where
  iv : abs (loadIV c.iv c.w) = Spec.Luffa.V0.take c.w
  len : ∀ d M, (c.block d M).length = c.w
  eq : ∀ d M, d.length = c.w → abs (c.block d M) = round c.w (abs d) (toL M)
  fold : ∀ d, d.length = c.w → c.fold d = total (abs d)

variable {c : Cfg}

def St (c : Cfg) (v : List R8) (m : Bytes) : Prop :=
  v.length = c.w ∧ abs v = (fullBlocks 32 m).foldl (fun V b => round c.w V (words b)) (Spec.Luffa.V0.take c.w)

structure Rep (c : Cfg) (hs : Nat) (d : Digest) (m : Bytes) : Prop where
  hh : d.hs = hs
  tl : d.tmpBuf.length = 32
  buf : LoopRep 32 32 (St c) d.v d.x d.nx m

theorem loadIV_length (iv : List U32) (w : Nat) : (loadIV iv w).length = w := by simp [loadIV]

theorem reset_rep (ok : Ok c) (hs : Nat) (d : Digest) (h : d.hs = hs) : Rep c hs (reset c d) [] := by
  refine ⟨h, zeros_length 32, LoopRep.init _ _ _ _ ?_⟩
  exact ⟨loadIV_length _ _, by rw [fullBlocks_nil]; exact ok.iv⟩

theorem write_rep (ok : Ok c) (hs : Nat) (d : Digest) (m q : Bytes) (h : Rep c hs d m) : Rep c hs (write c d q).1 (m ++ q) := by
  refine ⟨h.hh, h.tl, ?_⟩
  unfold write
  dsimp only
  refine loopWrite_rep 32 32 (by omega) (Nat.le_refl _) (St c) _ _ ?_ ?_ (q.length + 1) d.v d.x d.nx m q h.buf (by omega)
  · intro s x m q hR hx _ ht hf _
    obtain ⟨a, b⟩ := hR
    have hx' : x = restBlock 32 m ++ q := by rw [← ht, List.take_of_length_le (by omega)]
    refine ⟨ok.len _ _, ?_⟩
    show abs (c.block s (loadM x)) = _
    rw [hf, List.foldl_append, ← b, ok.eq _ _ a, hx']; rfl
  · intro s m q hR _ hf _
    obtain ⟨a, b⟩ := hR
    exact ⟨a, by rw [hf]; exact b⟩

theorem tmp_eq (t : Bytes) (n : Nat) (ht : t.length = 32) (hn : n < 32) :
    (forLoop (n + 1) 32 (fun (t : Bytes) i => t.set i 0x00) (t.set n 0x80)).drop n = 0x80 :: zeros (31 - n) ∧
    forLoop 0 (n + 1) (fun (t : Bytes) i => t.set i 0x00) (forLoop (n + 1) 32 (fun (t : Bytes) i => t.set i 0x00) (t.set n 0x80)) = zeros 32 := by
  have e1 : forLoop (n + 1) 32 (fun (t : Bytes) i => t.set i 0x00) (t.set n 0x80) = (t.take n ++ [0x80]) ++ zeros (31 - n) := by
    rw [show (fun (t : Bytes) i => t.set i 0x00) = (fun (l : Bytes) i => l.set i 0#8) from rfl, zeroLoop_eq _ _ _ (by omega) (by rw [List.length_set]; omega),
      List.drop_of_length_le (by rw [List.length_set]; omega), List.append_nil, List.take_set,
      List.take_succ_eq_append_getElem (by omega), List.set_append_right _ _ (by rw [List.length_take]; omega)]
    rw [List.length_take, Nat.min_eq_left (by omega), Nat.sub_self, show 32 - (n + 1) = 31 - n by omega]; rfl
  have hl : (t.take n ++ [0x80]).length = n + 1 := by rw [List.length_append, List.length_take]; simp; omega
  refine ⟨?_, ?_⟩
  · rw [e1, List.append_assoc, List.drop_append_of_le_length (by rw [List.length_take]; omega), List.drop_of_length_le (by rw [List.length_take]; omega)]; rfl
  · rw [e1, show (fun (t : Bytes) i => t.set i 0x00) = (fun (l : Bytes) i => l.set i 0#8) from rfl, zeroLoop_eq _ _ _ (by omega) (by rw [List.length_append, hl, zeros_length]; omega),
      List.take_zero, List.nil_append, List.drop_append_of_le_length (by omega), List.drop_of_length_le (by omega), List.nil_append, ← zeros_add]
    congr 1; omega

theorem words_zero : words (zeros 32) = List.replicate 8 0 := by decide +kernel

/-- One more whole block. -/
theorem St_block (m b : Bytes) (hm : m.length % 32 = 0) (hb : b.length = 32) (w : Nat) (I) :
    (fullBlocks 32 (m ++ b)).foldl (fun V b => round w V (words b)) I = round w ((fullBlocks 32 m).foldl (fun V b => round w V (words b)) I) (words b) := by
  rw [fullBlocks_append 32 m b (by omega) hm, fullBlocks_one 32 b (by omega) hb, List.foldl_append]; rfl

theorem pad_eq (m : Bytes) : m ++ (0x80 :: zeros (31 - m.length % 32)) = Spec.Luffa.pad m := by
  unfold Spec.Luffa.pad mdPad
  rw [List.append_nil, List.length_nil, Nat.add_zero]
  congr 3
  omega

/-- The state after the padding and n blank rounds. -/
def blank (w : Nat) (m : Bytes) : Nat → List (List U32)
  | 0 => (fullBlocks 32 (Spec.Luffa.pad m)).foldl (fun V b => round w V (words b)) (Spec.Luffa.V0.take w)
  | n + 1 => round w (blank w m n) (List.replicate 8 0)

theorem zeros_rounds (w : Nat) (m : Bytes) (n : Nat) :
    (fullBlocks 32 (Spec.Luffa.pad m ++ zeros (32 * n))).foldl (fun V b => round w V (words b)) (Spec.Luffa.V0.take w) = blank w m n := by
  induction n with
  | zero => rw [show zeros (32 * 0) = [] from rfl, List.append_nil]; rfl
  | succ n ih =>
    have hp : (Spec.Luffa.pad m).length % 32 = 0 := mdPad_length 32 0x80 [] m (by omega)
    rw [show 32 * (n + 1) = 32 * n + 32 by omega, zeros_add, ← List.append_assoc, St_block _ _ (by rw [List.length_append, zeros_length]; omega) (zeros_length 32), ih, words_zero]
    rfl

theorem checkSum_eq (ok : Ok c) (hs : Nat) (d : Digest) (m : Bytes) (h : Rep c hs d m) :
    checkSum c d =
      if c.more = 0 then (if hs = 32 then total (blank c.w m 1) else (total (blank c.w m 1)).take 7).flatMap be32
      else (total (blank c.w m 1)).flatMap be32 ++ ((total (blank c.w m 2)).take c.more).flatMap be32 := by
  have hn := h.buf.nx_lt (by omega)
  have hm : d.nx = m.length % 32 := by rw [h.buf.hnx, restBlock_length]
  obtain ⟨t1, t2⟩ := tmp_eq d.tmpBuf d.nx h.tl hn
  unfold checkSum
  dsimp only
  rw [t2, t1]
  have r1 := write_rep ok hs d m (0x80 :: zeros (31 - d.nx)) h
  rw [hm, pad_eq, ← hm] at r1
  generalize (write c d (0x80 :: zeros (31 - d.nx))).1 = d1 at *
  have r2 := write_rep ok hs d1 _ (zeros 32) r1
  generalize (write c d1 (zeros 32)).1 = d2 at *
  have r3 := write_rep ok hs d2 _ (zeros 32) r2
  generalize (write c d2 (zeros 32)).1 = d3 at *
  have e2 : abs d2.v = blank c.w m 1 := by rw [r2.buf.st.2]; exact zeros_rounds c.w m 1
  have e3 : abs d3.v = blank c.w m 2 := by
    rw [r3.buf.st.2, List.append_assoc, ← zeros_add]; exact zeros_rounds c.w m 2
  rw [ok.fold _ r2.buf.st.1, ok.fold _ r3.buf.st.1, e2, e3, r2.hh]

theorem refines (ok : Ok c) (hs : Nat) (H : Bytes → Bytes)
    (hH : ∀ m, (if c.more = 0 then (if hs = 32 then total (blank c.w m 1) else (total (blank c.w m 1)).take 7).flatMap be32
      else (total (blank c.w m 1)).flatMap be32 ++ ((total (blank c.w m 2)).take c.more).flatMap be32) = H m) :
    Refines (impl c) (newDigest c hs) { H := H, size := hs, blockSize := 32 } := by
  refine refines_of_sim (impl c) _ _ (Rep c hs) ?_ ?_ ?_ ?_ ?_ ?_
  · exact reset_rep ok hs _ rfl
  · intro s m p h; exact ⟨(write c s p).1, rfl, write_rep ok hs s m p h⟩
  · intro s m b h
    refine ⟨s, ?_, h⟩
    show some (s, b ++ checkSum c s) = _
    rw [checkSum_eq ok hs s m h, hH]
  · intro s m h; exact reset_rep ok hs s h.hh
  · intro s m h; exact h.hh
  · intro s m h; rfl

theorem sumOf_eq (ok : Ok c) (hs : Nat) (H : Bytes → Bytes) (hH : ∀ m, (if c.more = 0 then (if hs = 32 then total (blank c.w m 1) else (total (blank c.w m 1)).take 7).flatMap be32
      else (total (blank c.w m 1)).flatMap be32 ++ ((total (blank c.w m 2)).take c.more).flatMap be32) = H m) (m : Bytes) (hl : (H m).length = hs) :
    sumOf c (newDigest c hs) hs m = H m := by
  have h0 : Rep c hs (newDigest c hs) [] := reset_rep ok hs _ rfl
  have h1 := write_rep ok hs (newDigest c hs) [] m h0
  unfold sumOf
  rw [checkSum_eq ok hs _ _ h1, List.nil_append, hH, goCopy_zero_all _ _ (by rw [zeros_length, hl])]

/-! The three configurations -/
theorem fold_len {n : Nat} (d : List R8) (h : d.length = n) : (abs d).length = n := by unfold abs; rw [List.length_map, h]

theorem ok256 : Ok cfg256 where
  iv := by decide +kernel
  len _ _ := rfl
  eq d M h := block256_eq d h M
  fold d h := by
    match d, h with
    | [a, b, e], _ => rfl
theorem ok384 : Ok cfg384 where
  iv := by decide +kernel
  len _ _ := rfl
  eq d M h := block384_eq d h M
  fold d h := by
    match d, h with
    | [a, b, e, f], _ => rfl
theorem ok512 : Ok cfg512 where
  iv := by decide +kernel
  len _ _ := rfl
  eq d M h := block512_eq d h M
  fold d h := by
    match d, h with
    | [a, b, e, f, k], _ => rfl

theorem total_length (w : Nat) (V M) (hw : 2 ≤ w) : (total (round w V M)).length = 8 := by
  unfold total round
  obtain ⟨k, rfl⟩ : ∃ k, w = k + 2 := ⟨w - 2, by omega⟩
  rw [List.range_succ_eq_map]
  generalize hl : List.map (fun j => Spec.Luffa.Q j (Spec.Luffa.tweak j (Spec.Luffa.at' (Spec.Luffa.mi (k + 2) V M) j))) _ = l
  have hlen : l.length = k + 2 := by rw [← hl]; simp
  match l, hlen with
  | a :: l, hlen =>
    show (List.foldl Spec.Luffa.xor8 a l).length = 8
    have : l ≠ [] := by intro h; subst h; simp at hlen
    obtain ⟨l', x, rfl⟩ : ∃ l' x, l = l' ++ [x] := ⟨l.dropLast, l.getLast this, (List.dropLast_concat_getLast this).symm⟩
    rw [List.foldl_append]
    simp [Spec.Luffa.xor8]

theorem flat_length (l : List U32) : (l.flatMap be32).length = 4 * l.length := by
  induction l with
  | nil => rfl
  | cons a l ih => rw [List.flatMap_cons, List.length_append, ih, List.length_cons, show (be32 a).length = 4 from rfl]; omega

theorem luffa_eq (w n : Nat) (m : Bytes) : Spec.Luffa.luffa w n m = ((total (blank w m 1) ++ total (blank w m 2)).take n).flatMap be32 := rfl

theorem tot1 (w : Nat) (m : Bytes) (n : Nat) (hw : 2 ≤ w) : (total (blank w m (n + 1))).length = 8 := total_length w _ _ hw

theorem luffa_length (w n : Nat) (m : Bytes) (hw : 2 ≤ w) (hn : n ≤ 16) : (Spec.Luffa.luffa w n m).length = 4 * n := by
  rw [luffa_eq, flat_length, List.length_take, List.length_append, tot1 w m 0 hw, tot1 w m 1 hw]; omega

theorem out_short (w n : Nat) (m : Bytes) (hw : 2 ≤ w) (hn : n ≤ 8) : Spec.Luffa.luffa w n m = ((total (blank w m 1)).take n).flatMap be32 := by
  rw [luffa_eq, List.take_append_of_le_length (by rw [tot1 w m 0 hw]; exact hn)]
theorem out_long (w k : Nat) (m : Bytes) (hw : 2 ≤ w) : Spec.Luffa.luffa w (8 + k) m = (total (blank w m 1)).flatMap be32 ++ ((total (blank w m 2)).take k).flatMap be32 := by
  rw [luffa_eq, ← List.flatMap_append, List.take_append, tot1 w m 0 hw, List.take_of_length_le (by rw [tot1 w m 0 hw]; omega), Nat.add_sub_cancel_left]

theorem H224 (m : Bytes) : (if cfg256.more = 0 then (if 28 = 32 then total (blank cfg256.w m 1) else (total (blank cfg256.w m 1)).take 7).flatMap be32
      else (total (blank cfg256.w m 1)).flatMap be32 ++ ((total (blank cfg256.w m 2)).take cfg256.more).flatMap be32) = Spec.Luffa.luffa224 m := by
  rw [if_pos (show cfg256.more = 0 from rfl), if_neg (by omega), show Spec.Luffa.luffa224 m = Spec.Luffa.luffa 3 7 m from rfl, out_short 3 7 m (by omega) (by omega)]; rfl
theorem H256 (m : Bytes) : (if cfg256.more = 0 then (if 32 = 32 then total (blank cfg256.w m 1) else (total (blank cfg256.w m 1)).take 7).flatMap be32
      else (total (blank cfg256.w m 1)).flatMap be32 ++ ((total (blank cfg256.w m 2)).take cfg256.more).flatMap be32) = Spec.Luffa.luffa256 m := by
  rw [if_pos (rfl : 32 = 32), if_pos (show cfg256.more = 0 from rfl), show Spec.Luffa.luffa256 m = Spec.Luffa.luffa 3 8 m from rfl, out_short 3 8 m (by omega) (by omega), List.take_of_length_le (by rw [tot1 3 m 0 (by omega)]; omega)]; rfl
theorem H384 (m : Bytes) : (if cfg384.more = 0 then (if 48 = 32 then total (blank cfg384.w m 1) else (total (blank cfg384.w m 1)).take 7).flatMap be32
      else (total (blank cfg384.w m 1)).flatMap be32 ++ ((total (blank cfg384.w m 2)).take cfg384.more).flatMap be32) = Spec.Luffa.luffa384 m := by
  rw [if_neg (by decide)]
  exact (out_long 4 4 m (by omega)).symm
theorem H512 (m : Bytes) : (if cfg512.more = 0 then (if 64 = 32 then total (blank cfg512.w m 1) else (total (blank cfg512.w m 1)).take 7).flatMap be32
      else (total (blank cfg512.w m 1)).flatMap be32 ++ ((total (blank cfg512.w m 2)).take cfg512.more).flatMap be32) = Spec.Luffa.luffa512 m := by
  rw [if_neg (by decide)]
  exact (out_long 5 8 m (by omega)).symm
end Verif.Luffa
