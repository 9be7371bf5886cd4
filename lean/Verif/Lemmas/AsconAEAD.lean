import Verif.Lemmas.Ascon
namespace Verif.Ascon

theorem fullBlocks_step {p : Bytes} (h : 8 ≤ p.length) : fullBlocks 8 p = p.take 8 :: fullBlocks 8 (p.drop 8) ∧
    restBlock 8 p = restBlock 8 (p.drop 8) := by
  have hl : (p.take 8).length = 8 := by rw [List.length_take]; omega
  have h1 := fullBlocks_cons 8 (p.take 8) (p.drop 8) (by decide) hl
  have h2 := restBlock_append 8 (p.take 8) (p.drop 8) (by decide) (by rw [hl])
  rw [List.take_append_drop] at h1 h2
  exact ⟨h1, h2⟩

theorem encLoop_spec : ∀ fuel (s : State) (p dst : Bytes) (off : Nat), p.length ≤ fuel → off + p.length ≤ dst.length →
    ∃ s' dst', encLoop 6 fuel s p dst off = (s', restBlock 8 p, dst', off + p.length / 8 * 8) ∧ dst'.length = dst.length ∧
      (fullBlocks 8 p).foldl encStep (toS s, dst.take off) = (toS s', dst'.take (off + p.length / 8 * 8)) := by
  intro fuel
  induction fuel with
  | zero =>
    intro s p dst off h1 h2
    have : p = [] := List.length_eq_zero_iff.mp (by omega)
    subst this
    exact ⟨s, dst, rfl, rfl, rfl⟩
  | succ n ih =>
    intro s p dst off h1 h2
    unfold encLoop
    by_cases h : 8 ≤ p.length
    · rw [if_pos h]
      obtain ⟨f1, f2⟩ := fullBlocks_step h
      obtain ⟨s', dst', e1, e2, e3⟩ := ih (rounds (s.xor0 (getBE64 p)) 6) (p.drop 8) (goCopy dst off (be64 (s.xor0 (getBE64 p)).s0)) (off + 8)
        (by rw [List.length_drop]; omega) (by rw [List.length_drop, goCopy_length _ _ _ (by omega)]; omega)
      have hoff : off + 8 + (p.drop 8).length / 8 * 8 = off + p.length / 8 * 8 := by rw [List.length_drop]; omega
      rw [hoff] at e1 e3
      refine ⟨s', dst', ?_, ?_, ?_⟩
      · rw [f2]; exact e1
      · rw [e2, goCopy_length _ _ _ (by omega)]
      · rw [f1, List.foldl_cons, ← e3]
        have g := goCopy_take dst off (be64 (s.xor0 (getBE64 p)).s0) (by rw [be64_length]; omega)
        rw [be64_length] at g
        rw [g, rounds_eq _ 6 (by decide), toS_xor0]
        have g2 : Spec.Ascon.absorb (toS s) (p.take 8) = Spec.Ascon.absorb (toS s) p := by
          unfold Spec.Ascon.absorb
          rw [getBE64_take (by decide : 0 + 8 ≤ 8)]
        unfold encStep
        rw [g2]
        rfl
    · rw [if_neg h, fullBlocks_lt 8 p (by omega), restBlock_lt 8 p (by omega), Nat.div_eq_of_lt (by omega)]
      exact ⟨s, dst, rfl, rfl, rfl⟩

theorem Duplex.enc {s pt ct fin} (h : Duplex s pt ct fin) (o : Bytes) :
    ∃ s', (fullBlocks 8 pt).foldl encStep (s, o) = (s', o ++ ct.take (pt.length / 8 * 8)) ∧
      ct.drop (pt.length / 8 * 8) = (be64 (lastS s' (restBlock 8 pt)).x0).take (restBlock 8 pt).length ∧ fin = lastS s' (restBlock 8 pt) := by
  have hlen := h.length
  obtain ⟨ps, pr, cs, cr, s', h1, h2, h3, h4, h5, h6⟩ := h
  obtain ⟨l1, l2, l3⟩ := blk_len h4
  obtain ⟨f1, f2⟩ := fullBlocks_of l1 pr h3
  have hn : pt.length / 8 * 8 = cs.flatten.length := by
    rw [h1, List.length_append, flatten_len l1, flatten_len l2]; omega
  refine ⟨s', ?_, ?_, ?_⟩
  · rw [hn, h2, List.take_left, h1, f1]
    exact blk_enc h4 o
  · rw [hn, h2, List.drop_left, h1, f2, h5]
  · rw [h1, f2]; exact h6

theorem goCopy_take_le {dst src : Bytes} {off k : Nat} (h1 : off ≤ k) (h2 : k ≤ dst.length) (h3 : k ≤ off + src.length) :
    (goCopy dst off src).take k = dst.take off ++ src.take (k - off) := by
  unfold goCopy
  rw [List.append_assoc, List.take_append, List.take_of_length_le (by rw [List.length_take]; omega), List.length_take,
    Nat.min_eq_left (by omega), List.take_append, List.take_take, List.length_take, Nat.min_eq_left (by omega : k - off ≤ dst.length - off)]
  rw [show k - off - min (dst.length - off) src.length = 0 by omega, List.take_zero, List.append_nil]

theorem encrypt_spec (s : State) (pt dst ct : Bytes) (off : Nat) (fin : Spec.Ascon.S) (hd : off + pt.length + 16 = dst.length)
    (h : Duplex (toS s) pt ct fin) : ∃ s' dst', encrypt s pt dst off 6 = (s', dst', off + pt.length) ∧ toS s' = fin ∧
      dst'.length = dst.length ∧ dst'.take (off + pt.length) = dst.take off ++ ct := by
  obtain ⟨s1, d1, e1, e2, e3⟩ := encLoop_spec pt.length s pt dst off (Nat.le_refl _) (by omega)
  obtain ⟨t, g1, g2, g3⟩ := h.enc (dst.take off)
  rw [e3] at g1
  injection g1 with g1 g1'
  subst g1
  have hrl := restBlock_length 8 pt
  have hlen := h.length
  unfold encrypt
  simp only [e1]
  by_cases hz : (restBlock 8 pt).length > 0
  · rw [if_pos hz]
    rw [show off + pt.length / 8 * 8 + (restBlock 8 pt).length = off + pt.length by omega]
    refine ⟨_, _, rfl, ?_, ?_, ?_⟩
    · rw [toS_xor0]; exact g3.symm
    · rw [goCopy_length _ _ _ (by omega), e2]
    · rw [goCopy_take_le (by omega) (by omega) (by rw [be64_length]; omega), g1', show off + pt.length - (off + pt.length / 8 * 8) = (restBlock 8 pt).length by omega]
      have : be64 (s1.xor0 (getBE64 (padBuf (restBlock 8 pt)))).s0 = be64 (lastS (toS s1) (restBlock 8 pt)).x0 := rfl
      rw [this, ← g2, List.append_assoc, List.take_append_drop]
  · rw [if_neg hz]
    have h0 : restBlock 8 pt = [] := List.length_eq_zero_iff.mp (by omega)
    have hm : pt.length / 8 * 8 = pt.length := by omega
    rw [hm] at g1' ⊢
    refine ⟨_, _, rfl, ?_, e2, ?_⟩
    · rw [g3, h0, ← getBE64_padNil]; rfl
    · rw [g1', List.take_of_length_le (l := ct) (by omega)]

theorem seal_spec (key dst nonce pt ad : Bytes) (hk : key.length = 16) (hn : nonce.length = 16) :
    aeadSeal key dst nonce pt ad = some (dst ++ Spec.Ascon.encrypt key nonce ad pt) := by
  obtain ⟨ct, fin, h⟩ := duplex_of_enc (toS (start key nonce ad)) pt
  have hlen := h.length
  obtain ⟨s', d', e1, e2, e3, e4⟩ := encrypt_spec (start key nonce ad) pt (dst ++ zeros (pt.length + 16)) ct dst.length fin
    (by simp [zeros]; omega) h
  obtain ⟨sp1, sp2⟩ := h.spec
  rw [start_eq _ _ _ hk] at sp1 sp2
  unfold aeadSeal Spec.Ascon.encrypt
  rw [if_neg (by omega)]
  simp only [e1]
  have hl : (zeros (pt.length + 16)).length = pt.length + 16 := by simp [zeros]
  rw [goCopy_end2 _ _ _ _ _ (by rw [be64_length]) (by rw [be64_length, be64_length, e3, List.length_append, hl]; omega), e4, List.take_left]
  rw [sp2, sp1, ← e2, List.append_assoc]
  congr 3
  unfold tagWords Spec.Ascon.tag
  have : Spec.Ascon.p 12 { toS s' with x1 := (toS s').x1 ^^^ getBE64 key 0, x2 := (toS s').x2 ^^^ getBE64 key 8 } =
      toS (rounds { s' with s1 := s'.s1 ^^^ getBE64 key 0, s2 := s'.s2 ^^^ getBE64 key 8 } 12) := by
    rw [rounds_eq _ 12 (by decide)]; rfl
  rw [this]
  rfl

theorem decLoop_spec : ∀ fuel (s : State) (c dst : Bytes) (off : Nat), c.length ≤ fuel → off + c.length ≤ dst.length →
    ∃ s' dst', decLoop 6 fuel s c dst off = (s', restBlock 8 c, dst', off + c.length / 8 * 8) ∧ dst'.length = dst.length ∧
      (fullBlocks 8 c).foldl decStep (toS s, dst.take off) = (toS s', dst'.take (off + c.length / 8 * 8)) := by
  intro fuel
  induction fuel with
  | zero =>
    intro s p dst off h1 h2
    have : p = [] := List.length_eq_zero_iff.mp (by omega)
    subst this
    exact ⟨s, dst, rfl, rfl, rfl⟩
  | succ n ih =>
    intro s p dst off h1 h2
    unfold decLoop
    by_cases h : 8 ≤ p.length
    · rw [if_pos h]
      obtain ⟨f1, f2⟩ := fullBlocks_step h
      obtain ⟨s', dst', e1, e2, e3⟩ := ih (rounds { s with s0 := getBE64 p } 6) (p.drop 8) (goCopy dst off (be64 (getBE64 p ^^^ s.s0))) (off + 8)
        (by rw [List.length_drop]; omega) (by rw [List.length_drop, goCopy_length _ _ _ (by omega)]; omega)
      have hoff : off + 8 + (p.drop 8).length / 8 * 8 = off + p.length / 8 * 8 := by rw [List.length_drop]; omega
      rw [hoff] at e1 e3
      refine ⟨s', dst', ?_, ?_, ?_⟩
      · rw [f2]; exact e1
      · rw [e2, goCopy_length _ _ _ (by omega)]
      · rw [f1, List.foldl_cons, ← e3]
        have g := goCopy_take dst off (be64 (getBE64 p ^^^ s.s0)) (by rw [be64_length]; omega)
        rw [be64_length] at g
        rw [g, rounds_eq _ 6 (by decide)]
        unfold decStep
        rw [getBE64_take (by decide : 0 + 8 ≤ 8)]
        rfl
    · rw [if_neg h, fullBlocks_lt 8 p (by omega), restBlock_lt 8 p (by omega), Nat.div_eq_of_lt (by omega)]
      exact ⟨s, dst, rfl, rfl, rfl⟩

theorem shr_byte (w : U64) (i : Nat) (hi : i < 8) : (w >>> (56 - i * 8)).setWidth 8 = at8 (be64 w) i := by
  rw [be64_get hi]
  apply BitVec.eq_of_getLsbD_eq
  intro j hj
  rw [BitVec.getLsbD_setWidth, BitVec.getLsbD_extractLsb', BitVec.getLsbD_ushiftRight, Nat.mul_comm]

/-- ascon.go:96-98: the bytes of the last partial block. -/
theorem decBytes (a c : Bytes) (w : U64) (n : Nat) (rest : Bytes) (hc : c.length = n) (hr : rest.length = n) (hn : n < 8) :
    forLoop 0 n (fun dst i => dst.set (a.length + i) (at8 c i ^^^ (w >>> (56 - i * 8)).setWidth 8)) (a ++ rest) =
      a ++ List.zipWith (· ^^^ ·) c (be64 w) := by
  have hzl : (List.zipWith (· ^^^ ·) c (be64 w)).length = n := by rw [List.length_zipWith, be64_length]; omega
  have := forLoop_inv (a := 0) (b := n) (s := a ++ rest)
    (body := fun (dst : Bytes) i => dst.set (a.length + i) (at8 c i ^^^ (w >>> (56 - i * 8)).setWidth 8))
    (fun j (d : Bytes) => d = a ++ ((List.zipWith (· ^^^ ·) c (be64 w)).take j ++ rest.drop j)) (Nat.zero_le _) (by simp) ?_
  · rw [this, List.take_of_length_le (by omega), List.drop_eq_nil_of_le (by omega), List.append_nil]
  · rintro j d _ hj rfl
    rw [List.set_append, if_neg (by omega), show a.length + j - a.length = j by omega, List.set_append,
      if_neg (by rw [List.length_take]; omega), List.length_take, Nat.min_eq_left (by omega), Nat.sub_self,
      List.drop_eq_getElem_cons (by omega : j < rest.length), List.set_cons_zero]
    rw [List.take_succ, shr_byte _ _ (by omega)]
    have hget : (List.zipWith (· ^^^ ·) c (be64 w))[j]? = some (at8 c j ^^^ at8 (be64 w) j) := by
      rw [List.getElem?_eq_getElem (by omega), List.getElem_zipWith]
      unfold at8
      rw [List.getD_eq_getElem?_getD, List.getElem?_eq_getElem (by omega), List.getD_eq_getElem?_getD,
        List.getElem?_eq_getElem (by rw [be64_length]; omega)]
      rfl
    rw [hget]
    simp

/-- ascon.go:100-104: packing the padded last block. -/
theorem decPack (a pr : Bytes) (hn : pr.length < 8) (hp : 0 < pr.length) :
    forLoop 0 pr.length (fun x i => x ||| ((at8 (a ++ pr) (a.length + i)).setWidth 64 <<< (56 - i * 8))) 0#64 |||
      ((0x80 : U64) <<< (56 - pr.length * 8)) = getBE64 (padBuf pr) := by
  have hat : ∀ i, at8 (a ++ pr) (a.length + i) = at8 pr i := by
    intro i
    have := at8_drop (a ++ pr) a.length i
    rw [List.drop_left] at this
    exact this.symm
  simp only [hat]
  rw [padBuf_eq pr hn]
  have key : ∀ (b0 b1 b2 b3 b4 b5 b6 b7 : Byte), getBE64 [b7, b6, b5, b4, b3, b2, b1, b0] = (b7 ++ b6 ++ b5 ++ b4 ++ b3 ++ b2 ++ b1 ++ b0 : U64) := fun _ _ _ _ _ _ _ _ => rfl
  have z : ∀ k : Nat, BitVec.setWidth 64 (0#8) <<< k = 0#64 := by intro k; simp
  match pr, hn, hp with
  | [a0], _, _ =>
    refine Eq.symm ?_
    show getBE64 [_, _, _, _, _, _, _, _] = _
    rw [key, join8_or]
    simp [forLoop, List.range', at8, z]
  | [a0, a1], _, _ =>
    refine Eq.symm ?_
    show getBE64 [_, _, _, _, _, _, _, _] = _
    rw [key, join8_or]
    simp [forLoop, List.range', at8, z]
  | [a0, a1, a2], _, _ =>
    refine Eq.symm ?_
    show getBE64 [_, _, _, _, _, _, _, _] = _
    rw [key, join8_or]
    simp [forLoop, List.range', at8, z]
  | [a0, a1, a2, a3], _, _ =>
    refine Eq.symm ?_
    show getBE64 [_, _, _, _, _, _, _, _] = _
    rw [key, join8_or]
    simp [forLoop, List.range', at8, z]
  | [a0, a1, a2, a3, a4], _, _ =>
    refine Eq.symm ?_
    show getBE64 [_, _, _, _, _, _, _, _] = _
    rw [key, join8_or]
    simp [forLoop, List.range', at8, z]
  | [a0, a1, a2, a3, a4, a5], _, _ =>
    refine Eq.symm ?_
    show getBE64 [_, _, _, _, _, _, _, _] = _
    rw [key, join8_or]
    simp [forLoop, List.range', at8, z]
  | [a0, a1, a2, a3, a4, a5, a6], _, _ =>
    refine Eq.symm ?_
    show getBE64 [_, _, _, _, _, _, _, _] = _
    rw [key, join8_or]
    simp [forLoop, List.range', at8, z]

theorem decrypt_spec (s : State) (ct dst pt : Bytes) (off : Nat) (fin : Spec.Ascon.S) (hd : off + ct.length = dst.length)
    (h : Duplex (toS s) pt ct fin) : ∃ s', decrypt s ct dst off 6 = (s', dst.take off ++ pt) ∧ toS s' = fin := by
  obtain ⟨s1, d1, e1, e2, e3⟩ := decLoop_spec ct.length s ct dst off (Nat.le_refl _) (by omega)
  obtain ⟨t, g1, g2, g3⟩ := h.dec (dst.take off)
  rw [e3] at g1
  injection g1 with g1 g1'
  subst g1
  have hrl := restBlock_length 8 ct
  have hlen := h.length
  unfold decrypt
  simp only [e1]
  by_cases hz : (restBlock 8 ct).length > 0
  · rw [if_pos hz]
    have hoff : off + ct.length / 8 * 8 ≤ d1.length := by omega
    have hn : d1.length - (off + ct.length / 8 * 8) = (restBlock 8 ct).length := by omega
    generalize hA : d1.take (off + ct.length / 8 * 8) = A at *
    have hAl : A.length = off + ct.length / 8 * 8 := by rw [← hA, List.length_take]; omega
    have hd1 : d1 = A ++ d1.drop (off + ct.length / 8 * 8) := by rw [← hA, List.take_append_drop]
    have hb := decBytes A (restBlock 8 ct) s1.s0 (restBlock 8 ct).length (d1.drop (off + ct.length / 8 * 8)) rfl
      (by rw [List.length_drop]; omega) (by omega)
    rw [← hd1, hAl] at hb
    rw [hn, hb]
    have hg2 : List.zipWith (· ^^^ ·) (restBlock 8 ct) (be64 s1.s0) = pt.drop (ct.length / 8 * 8) := g2.symm
    rw [hg2]
    have hprl : (pt.drop (ct.length / 8 * 8)).length = (restBlock 8 ct).length := by rw [List.length_drop]; omega
    have hp := decPack A (pt.drop (ct.length / 8 * 8)) (by omega) (by omega)
    rw [hAl, hprl] at hp
    rw [hp, g1', List.append_assoc, List.take_append_drop]
    refine ⟨_, rfl, ?_⟩
    rw [toS_xor0]; exact g3.symm
  · rw [if_neg hz]
    have h0 : restBlock 8 ct = [] := List.length_eq_zero_iff.mp (by omega)
    have hm : ct.length / 8 * 8 = ct.length := by omega
    rw [hm, List.take_of_length_le (l := d1) (by omega), List.take_of_length_le (l := pt) (by omega)] at g1'
    rw [g1']
    refine ⟨_, rfl, ?_⟩
    rw [g3, hm, List.drop_eq_nil_of_le (by omega), ← getBE64_padNil]; rfl

theorem or_halves (t0 t1 : U64) : ((t0 >>> 32).setWidth 32 ||| t0.setWidth 32 ||| ((t1 >>> 32).setWidth 32 ||| t1.setWidth 32) : U32) = 0 ↔ t0 = 0 ∧ t1 = 0 := by
  constructor
  · intro h
    have hb : ∀ i, i < 32 → t0.getLsbD (32 + i) = false ∧ t0.getLsbD i = false ∧ t1.getLsbD (32 + i) = false ∧ t1.getLsbD i = false := by
      intro i hi
      have := congrArg (fun w => BitVec.getLsbD w i) h
      simp only [BitVec.getLsbD_or, BitVec.getLsbD_setWidth, BitVec.getLsbD_ushiftRight, hi, decide_true, Bool.true_and, BitVec.ofNat_eq_ofNat,
        BitVec.getLsbD_zero, Bool.or_eq_false_iff] at this
      exact ⟨this.1.1, this.1.2, this.2.1, this.2.2⟩
    constructor
    · apply BitVec.eq_of_getLsbD_eq
      intro i hi
      by_cases h32 : i < 32
      · rw [(hb i h32).2.1]; simp
      · have := (hb (i - 32) (by omega)).1
        rw [show 32 + (i - 32) = i by omega] at this
        rw [this]; simp
    · apply BitVec.eq_of_getLsbD_eq
      intro i hi
      by_cases h32 : i < 32
      · rw [(hb i h32).2.2.2]; simp
      · have := (hb (i - 32) (by omega)).2.2.1
        rw [show 32 + (i - 32) = i by omega] at this
        rw [this]; simp
  · rintro ⟨rfl, rfl⟩; decide

theorem xor_eq_zero (a b : U64) : a ^^^ b = 0 ↔ a = b := by
  constructor
  · intro h
    have := congrArg (· ^^^ b) h
    simp only [BitVec.xor_assoc, BitVec.xor_self, BitVec.xor_zero, BitVec.ofNat_eq_ofNat, BitVec.zero_xor] at this
    exact this
  · rintro rfl; simp

theorem tag_match (e : Bytes) (he : e.length = 16) (a b : U64) : (a = getBE64 e 0 ∧ b = getBE64 e 8) ↔ e = be64 a ++ be64 b := by
  have h1 : be64 (getBE64 e 0) = e.take 8 := by
    rw [← getBE64_take (n := 8) (by decide)]
    exact be64_getBE64 (by rw [List.length_take]; omega)
  have h2 : be64 (getBE64 e 8) = e.drop 8 := by
    have := getBE64_drop e 8 0
    rw [Nat.add_zero] at this
    rw [← this]
    exact be64_getBE64 (by rw [List.length_drop]; omega)
  constructor
  · rintro ⟨rfl, rfl⟩
    rw [h1, h2, List.take_append_drop]
  · intro h
    have g1 : e.take 8 = be64 a := by rw [h]; exact List.take_left' (be64_length a)
    have g2 : e.drop 8 = be64 b := by rw [h]; exact List.drop_left' (be64_length a)
    exact ⟨be64_inj (by rw [h1, g1]), be64_inj (by rw [h2, g2])⟩

theorem encrypt_length (key nonce ad pt : Bytes) : (Spec.Ascon.encrypt key nonce ad pt).length = pt.length + 16 := by
  obtain ⟨ct, fin, h⟩ := duplex_of_enc (Spec.Ascon.mixAD (Spec.Ascon.init key nonce) ad) pt
  unfold Spec.Ascon.encrypt
  simp only
  rw [h.spec.2, List.length_append, h.length]
  rfl

/-- `Open` on every input: the bytes returned and the verdict. -/
theorem open_spec (key dst nonce C ad : Bytes) (hk : key.length = 16) (hn : nonce.length = 16) (hC : 16 ≤ C.length) :
    ∃ pt ok, aeadOpen key dst nonce C ad = some (dst ++ pt, ok) ∧ pt.length + 16 = C.length ∧
      (ok = true ↔ C = Spec.Ascon.encrypt key nonce ad pt) ∧ (∀ pt', pt'.length + 16 = C.length → C.take (C.length - 16) = (Spec.Ascon.encrypt key nonce ad pt').take (C.length - 16) → pt' = pt) := by
  obtain ⟨pt, fin, h⟩ := duplex_of_dec (toS (start key nonce ad)) (C.take (C.length - 16))
  have hlen := h.length
  obtain ⟨s', e1, e2⟩ := decrypt_spec (start key nonce ad) (C.take (C.length - 16)) (dst ++ zeros (C.length - 16)) pt dst.length fin
    (by simp [zeros]) h
  rw [List.take_left] at e1
  have hsp := h.spec
  rw [start_eq _ _ _ hk] at hsp
  have hlC : (C.take (C.length - 16)).length = C.length - 16 := by rw [List.length_take]; omega
  have htag : Spec.Ascon.tag key fin = be64 (tagWords key s').1 ++ be64 (tagWords key s').2 := by
    rw [← e2]
    unfold tagWords Spec.Ascon.tag
    have : Spec.Ascon.p 12 { toS s' with x1 := (toS s').x1 ^^^ getBE64 key 0, x2 := (toS s').x2 ^^^ getBE64 key 8 } =
        toS (rounds { s' with s1 := s'.s1 ^^^ getBE64 key 0, s2 := s'.s2 ^^^ getBE64 key 8 } 12) := by
      rw [rounds_eq _ 12 (by decide)]; rfl
    rw [this]
    rfl
  have henc : Spec.Ascon.encrypt key nonce ad pt = C.take (C.length - 16) ++ (be64 (tagWords key s').1 ++ be64 (tagWords key s').2) := by
    unfold Spec.Ascon.encrypt
    simp only
    rw [hsp.2, hsp.1, htag]
  have hCe : C = Spec.Ascon.encrypt key nonce ad pt ↔ C.drop (C.length - 16) = be64 (tagWords key s').1 ++ be64 (tagWords key s').2 := by
    rw [henc]
    constructor
    · intro hh
      have := congrArg (List.drop (C.length - 16)) hh
      rw [List.drop_left' hlC] at this
      exact this
    · intro hh
      rw [← hh, List.take_append_drop]
  refine ⟨pt, decide (C = Spec.Ascon.encrypt key nonce ad pt), ?_, by omega, by simp, ?_⟩
  · unfold aeadOpen
    rw [if_neg (by omega), if_neg (by omega)]
    simp only [e1]
    have hcond := or_halves ((tagWords key s').1 ^^^ getBE64 (C.drop (C.length - 16)) 0) ((tagWords key s').2 ^^^ getBE64 (C.drop (C.length - 16)) 8)
    rw [xor_eq_zero, xor_eq_zero, tag_match _ (by rw [List.length_drop]; omega), ← hCe] at hcond
    by_cases hh : C = Spec.Ascon.encrypt key nonce ad pt
    · rw [if_pos (hcond.mpr hh), decide_eq_true hh]
    · rw [if_neg (fun hx => hh (hcond.mp hx)), decide_eq_false hh]
  · intro pt' hl hpt'
    obtain ⟨ct', fin', h'⟩ := duplex_of_enc (toS (start key nonce ad)) pt'
    have hsp' := h'.spec
    rw [start_eq _ _ _ hk] at hsp'
    have hl' := h'.length
    have hct : C.take (C.length - 16) = ct' := by
      rw [hpt']
      unfold Spec.Ascon.encrypt
      simp only
      rw [hsp'.2]
      exact List.take_left' (by omega)
    rw [hct] at h
    exact (h'.unique h).1

end Verif.Ascon
