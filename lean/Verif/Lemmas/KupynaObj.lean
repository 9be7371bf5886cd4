import Verif.Lemmas.Kupyna
import Verif.BufferX
/-
Package kupyna: Write and Sum of the digests.
-/
namespace Verif.Kupyna
open LSH (getD_set' getD_map_range ext_getD)
open Echo (abs abs_length abs_at)

variable {F : Fns} {c : Nat}

theorem transform_take (h : Fits F c) (s b : List U64) : transform F s b = transform F s (b.take c) := by
  have hg : ∀ i, i < c → g b i = g (b.take c) i := by
    intro i hi
    unfold g
    rw [List.getD_eq_getElem?_getD, List.getD_eq_getElem?_getD, List.getElem?_take_of_lt hi]
  have e1 : ((List.range c).map fun i => g s i ^^^ g b i) = (List.range c).map fun i => g s i ^^^ g (b.take c) i := by
    apply List.map_congr_left
    intro i hi
    rw [hg i (List.mem_range.mp hi)]
  have e2 : ((List.range c).map fun i => g b i) = (List.range c).map fun i => g (b.take c) i := by
    apply List.map_congr_left
    intro i hi
    exact hg i (List.mem_range.mp hi)
  unfold transform
  dsimp only
  rw [h.cols, fillAll (fun i => g s i ^^^ g b i), fillAll (fun i => g b i), fillAll (fun i => g s i ^^^ g (b.take c) i), fillAll (fun i => g (b.take c) i), e1, e2]

theorem load_take (p : Bytes) (hp : 8 * c ≤ p.length) : (bytesToUint64s p).take c = bytesToUint64s (p.take (8 * c)) := by
  have hl : (p.take (8 * c)).length = 8 * c := by rw [List.length_take]; omega
  apply ext_getD
  · simp [bytesToUint64s]; omega
  · intro i hi
    have hi' : i < c := by simp [bytesToUint64s] at hi; omega
    unfold bytesToUint64s
    rw [getD_map_range _ _ _ _ (by rw [hl]; omega), List.getD_eq_getElem?_getD, List.getElem?_take_of_lt hi', ← List.getD_eq_getElem?_getD,
      getD_map_range _ _ _ _ (by omega)]
    apply le64_ext
    intro k hk
    rw [getLE64_extract _ _ _ hk, getLE64_extract _ _ _ hk]
    unfold at8
    rw [List.getD_eq_getElem?_getD, List.getD_eq_getElem?_getD, List.getElem?_take_of_lt (by omega)]

theorem block_take (h : Fits F c) (s : List U64) (p : Bytes) (hp : 8 * c ≤ p.length) : blockFn F s p = blockFn F s (p.take (8 * c)) := by
  unfold blockFn
  rw [transform_take h, load_take p hp]

theorem block_eq (h : Fits F c) (s : List U64) (hs : s.length = c) (b : Bytes) (hb : b.length = 8 * c) :
    (blockFn F s b).length = c ∧ abs (blockFn F s b) = Spec.Kupyna.compress c (abs s) b := by
  have hl : (bytesToUint64s b).length = c := by simp [bytesToUint64s]; omega
  obtain ⟨e1, e2⟩ := transform_eq h s (bytesToUint64s b) hs (by omega)
  rw [List.take_of_length_le (by omega)] at e2
  refine ⟨e1, ?_⟩
  unfold blockFn
  rw [e2]
  congr 1
  exact Echo.load_abs b (by omega)

theorem blocks_eq (h : Fits F c) : ∀ fuel s nx p, p.length ≤ fuel → blocks F fuel s nx p =
    ((fullBlocks (8 * c) p).foldl (blockFn F) s, if 8 * c ≤ p.length then 0 else nx, restBlock (8 * c) p) := by
  have hc := h.c_pos
  intro fuel
  induction fuel with
  | zero =>
    intro s nx p hp
    rw [fullBlocks_lt _ p (by omega), restBlock_lt _ p (by omega), if_neg (by omega)]; rfl
  | succ n ih =>
    intro s nx p hp
    unfold blocks
    rw [h.block]
    by_cases hb : 8 * c ≤ p.length
    · rw [if_pos hb, if_pos hb, ih _ _ _ (by rw [List.length_drop]; omega), block_take h s p hb]
      have hl : (p.take (8 * c)).length = 8 * c := by rw [List.length_take]; omega
      have e := List.take_append_drop (8 * c) p
      have e1 := fullBlocks_cons (8 * c) (p.take (8 * c)) (p.drop (8 * c)) (by omega) hl
      have e2 := restBlock_append (8 * c) (p.take (8 * c)) (p.drop (8 * c)) (by omega) (by rw [hl, Nat.mod_self])
      rw [e] at e1 e2
      rw [e1, e2, List.foldl_cons, ite_self]
    · rw [if_neg hb, if_neg hb, fullBlocks_lt _ p (by omega), restBlock_lt _ p (by omega)]; rfl

theorem write_eq (h : Fits F c) (d : Digest) (p : Bytes) (hx : d.x.length = 8 * c) (hn : d.nx < 8 * c) :
    write F d p = d.absorbX (8 * c) (blockFn F) p := by
  have hc := h.c_pos
  unfold write BufDigest.absorbX xWrite
  dsimp only
  rw [h.block, hx]
  have hmin : (if p.length > 8 * c - d.nx then 8 * c - d.nx else p.length) = min (8 * c - d.nx) p.length := by split <;> omega
  rw [hmin]
  have htake : goCopy d.x d.nx p = goCopy d.x d.nx (p.take (min (8 * c - d.nx) p.length)) := by
    unfold goCopy
    rw [hx, List.take_take, List.length_take]
    congr 1
    · rw [show min (8 * c - d.nx) (min (8 * c - d.nx) p.length) = min (8 * c - d.nx) p.length by omega]
      by_cases hp : p.length ≤ 8 * c - d.nx
      · rw [List.take_of_length_le (l := p) hp, List.take_of_length_le (l := p) (by omega)]
      · rw [Nat.min_eq_left (by omega)]
    · by_cases hp : p.length ≤ 8 * c - d.nx
      · rw [Nat.min_eq_right hp, Nat.min_self]
      · rw [List.drop_eq_nil_of_le (by omega), List.drop_eq_nil_of_le (by omega)]
  rw [← htake]
  have hfin : ∀ (s : List U64) (x : Bytes) (nx : Nat) (q : Bytes), x.length = 8 * c → (q = [] ∨ nx = 0) →
      (let r := blocks F q.length s nx q
       if r.2.2.length > 0 then ({ s := r.1, x := goCopy x 0 r.2.2, nx := min x.length r.2.2.length, len := d.len + BitVec.ofNat 64 p.length } : Digest)
       else { s := r.1, x := x, nx := r.2.1, len := d.len + BitVec.ofNat 64 p.length }) =
      (let r := if (restBlock (8 * c) q).length > 0 then ((fullBlocks (8 * c) q).foldl (blockFn F) s, goCopy x 0 (restBlock (8 * c) q), (restBlock (8 * c) q).length)
          else ((fullBlocks (8 * c) q).foldl (blockFn F) s, x, nx)
       ({ s := r.1, x := r.2.1, nx := r.2.2, len := d.len + BitVec.ofNat 64 p.length } : Digest)) := by
    intro s x nx q hxl hq
    dsimp only
    rw [blocks_eq h _ _ _ _ (Nat.le_refl _)]
    dsimp only
    have hr : (restBlock (8 * c) q).length < 8 * c := by rw [restBlock_length]; exact Nat.mod_lt _ (by omega)
    by_cases h0 : (restBlock (8 * c) q).length > 0
    · rw [if_pos h0, if_pos h0, hxl, Nat.min_eq_right (by omega)]
    · rw [if_neg h0, if_neg h0]
      rcases hq with rfl | rfl
      · rw [if_neg (by simp; omega)]
      · rw [ite_self]
  by_cases h0 : d.nx > 0
  · rw [if_pos h0]
    by_cases h1 : d.nx + min (8 * c - d.nx) p.length = 8 * c
    · rw [if_pos h1]
      exact hfin _ _ _ _ (by rw [goCopy_length _ _ _ (by omega), hx]) (Or.inr rfl)
    · rw [if_neg h1]
      exact hfin _ _ _ _ (by rw [goCopy_length _ _ _ (by omega), hx]) (Or.inl (List.drop_eq_nil_of_le (by omega)))
  · rw [if_neg h0]
    exact hfin _ _ _ _ hx (Or.inr (by show d.nx = 0; omega))

/-- The digest represents message m. -/
abbrev Rep (F : Fns) (c : Nat) (d : Digest) (m : Bytes) : Prop := d.Repr (8 * c) (blockFn F) (reset F).s m

theorem reset_rep (h : Fits F c) : Rep F c (reset F) [] := .init ⟨rfl, by show (zeros F.block).length = _; rw [zeros_length, h.block], rfl, rfl⟩

theorem write_rep (h : Fits F c) (d : Digest) (m p : Bytes) (hr : Rep F c d m) : Rep F c (write F d p) (m ++ p) := by
  have hc := h.c_pos
  rw [write_eq h d p hr.buf.xlen (hr.buf.nx_lt (by omega))]
  exact hr.absorbX (by omega) p

theorem iv_eq (h : Fits F c) : (reset F).s.length = c ∧ abs (reset F).s = Spec.Kupyna.iv c := by
  have hb := h.block
  have hcl := h.cols
  unfold reset
  rw [hb, hcl]
  rcases h.c_eq with e | e <;> subst e
  · exact ⟨rfl, by decide +kernel⟩
  · exact ⟨rfl, by decide +kernel⟩

theorem chain_eq (h : Fits F c) (bs : List Bytes) (hbs : ∀ b ∈ bs, b.length = 8 * c) : ∀ s : List U64, s.length = c →
    (bs.foldl (blockFn F) s).length = c ∧ abs (bs.foldl (blockFn F) s) = bs.foldl (Spec.Kupyna.compress c) (abs s) := by
  induction bs with
  | nil => intro s hs; exact ⟨hs, rfl⟩
  | cons b bs ih =>
    intro s hs
    obtain ⟨e1, e2⟩ := block_eq h s hs b (hbs b (by simp))
    have := ih (fun b hb => hbs b (by simp [hb])) _ e1
    rw [e2] at this
    exact this

theorem final_eq (h : Fits F c) (d : Digest) (m : Bytes) (hr : Rep F c d m) :
    checkSum F d = (abs (outputTransform F (mdFinal (8 * c) (blockFn F) 0x80 d.s d.x d.nx (Spec.Kupyna.enc m)))).drop F.skip := by
  have hc := h.c_pos
  have hc8 : 8 ≤ c := by rcases h.c_eq with e | e <;> omega
  have hxl := hr.buf.xlen
  have hnx := hr.buf.nx_lt (by omega)
  have hel : (Spec.Kupyna.enc m).length = 12 := by simp [Spec.Kupyna.enc]
  have hlen : d.len * 8 = BitVec.ofNat 64 (8 * m.length) := by
    rw [hr.len_eq, Nat.mul_comm, BitVec.ofNat_mul]; rfl
  unfold checkSum mdFinal
  dsimp only
  rw [h.block, h.lenAt, hel, hlen]
  have hmk : markBuf d.x d.nx (0x80 : Byte) (8 * c) = goCopy (d.x.set d.nx (0x80 : Byte)) (d.nx + 1) (zeros (8 * c)) := rfl
  have hml := markBuf_length d.x d.nx (0x80 : Byte) (8 * c) (by omega)
  have hme := markBuf_eq d.x d.nx (0x80 : Byte) (8 * c) (by omega) (by omega)
  have hput : ∀ x : Bytes, x.length = 8 * c → x.drop (8 * c - 4) = zeros 4 → goCopy x (8 * c - 12) (le64 (BitVec.ofNat 64 (8 * m.length))) =
      x.take (8 * c - 12) ++ Spec.Kupyna.enc m := by
    intro x hx hz
    unfold goCopy Spec.Kupyna.enc
    rw [hx, le64_length, show 8 * c - 12 + 8 = 8 * c - 4 by omega, hz, List.take_of_length_le (l := le64 _) (by rw [le64_length]; omega), List.append_assoc]
  have hz0 : goCopy (markBuf d.x d.nx (0x80 : Byte) (8 * c)) 0 (zeros (8 * c)) = zeros (8 * c) := goCopy_zero_all _ _ (by rw [hml, hxl, zeros_length])
  by_cases hlong : d.nx + 1 > 8 * c - 12
  · rw [if_pos hlong, if_pos (by omega)]
    dsimp only
    rw [← hmk, hz0, hput _ (zeros_length _) (by unfold zeros; rw [List.drop_replicate]; congr 1; omega)]
    rfl
  · rw [if_neg hlong, if_neg (by omega)]
    dsimp only
    rw [← hmk, hput _ (by rw [hml, hxl]) ?_]
    · rfl
    · rw [hme, hxl]
      have hrl : (d.x.take d.nx).length = d.nx := by rw [List.length_take]; omega
      rw [List.drop_append, List.drop_eq_nil_of_le (by omega), hrl, List.nil_append, show 8 * c - 4 - d.nx = (8 * c - 5 - d.nx) + 1 by omega, List.drop_succ_cons]
      unfold zeros; rw [List.drop_replicate]; congr 1; omega

theorem checkSum_eq (h : Fits F c) (d : Digest) (m : Bytes) (n : Nat) (hr : Rep F c d m) (cut : Nat) (hn : F.skip + cut + n = 8 * c) :
    (checkSum F d).drop cut = Spec.Kupyna.hash c n m := by
  have hc := h.c_pos
  have hel : (Spec.Kupyna.enc m).length = 12 := by simp [Spec.Kupyna.enc]
  rw [final_eq h d m hr, mdFinal_eq (B := 8 * c) (blockFn F) (by omega) 0x80 (reset F).s d.s d.x d.nx m _ (by rcases h.c_eq with e | e <;> omega) hr.buf, List.drop_drop]
  obtain ⟨i1, i2⟩ := iv_eq h
  obtain ⟨e1, e2⟩ := chain_eq h (fullBlocks (8 * c) (Spec.Kupyna.pad c m)) (fun b hb => mem_fullBlocks_length _ _ b hb) _ i1
  rw [i2] at e2
  obtain ⟨o1, o2⟩ := output_eq h _ e1
  rw [e2] at o2
  unfold Spec.Kupyna.hash Spec.Kupyna.digest
  dsimp only
  rw [← o2, show 8 * c - n = F.skip + cut by omega]
  rfl

end Verif.Kupyna
