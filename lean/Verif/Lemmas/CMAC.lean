import Verif.Lemmas.GFBlock
import Verif.Model.CMAC
/-
cmac: the keys are the doublings of E(0), and Write keeps the CBC chain of the message, with the bytes of the last
block already added to it.
-/
namespace Verif.CMAC
open Verif.Spec (bxor beNat bxor_length at8_bxor padBlock)

theorem shift_length (l : Bytes) : (shift l).1.length = l.length := by
  induction l with
  | nil => rfl
  | cons x xs ih => show (shift xs).1.length + 1 = _; rw [ih]; rfl
theorem shift_bit (l : Bytes) : (shift l).2 = 0 ∨ (shift l).2 = 1 := by
  cases l with
  | nil => exact Or.inl rfl
  | cons x xs => show x >>> 7 = 0 ∨ x >>> 7 = 1; revert x; decide
theorem shl1_or (x b : Byte) (hb : b = 0 ∨ b = 1) : (x <<< 1 ||| b).toNat + 256 * (x >>> 7).toNat = 2 * x.toNat + b.toNat := by
  rcases hb with rfl | rfl <;> revert x <;> decide
theorem shift_nat (l : Bytes) : beNat (shift l).1 + 256 ^ l.length * (shift l).2.toNat = 2 * beNat l := by
  induction l with
  | nil => rfl
  | cons x xs ih =>
    show beNat ((x <<< 1 ||| (shift xs).2) :: (shift xs).1) + 256 ^ (xs.length + 1) * (x >>> 7).toNat = _
    have h := shl1_or x _ (shift_bit xs)
    rw [Spec.beNat_cons, Spec.beNat_cons, shift_length, Nat.pow_succ, Nat.mul_assoc, Nat.mul_comm (BitVec.toNat (_ ||| _)), Nat.mul_comm x.toNat]
    generalize (x <<< 1 ||| (shift xs).2).toNat = u at h ⊢
    generalize (x >>> 7).toNat = v at h ⊢
    generalize (shift xs).2.toNat = w at h ih
    generalize 256 ^ xs.length = P at ih ⊢
    have h2 : P * u + P * (256 * v) = 2 * (P * x.toNat) + P * w := by
      rw [← Nat.mul_add, h, Nat.mul_add, ← Nat.mul_assoc, ← Nat.mul_assoc, Nat.mul_comm P 2]
    omega

theorem double_length (bs p : Nat) (l : Bytes) : (double bs p l).length = l.length := by
  unfold double; rw [List.length_set, shift_length]
/-- One doubling of the code is multiplication by x, with the constant cut down to a byte. -/
theorem double_eq (p : Nat) (l : Bytes) (hl : 0 < l.length) : double l.length p l = Spec.dbl (p % 256) l := by
  unfold Spec.dbl
  refine Spec.eq_beBytes (double_length _ _ _) ?_
  unfold double
  dsimp only
  have h1 := shift_length l
  have h2 := shift_nat l
  have hlt := Spec.beNat_lt (shift l).1
  rw [h1] at hlt
  have hs := Spec.beNat_set_last (shift l).1 (by omega) (BitVec.ofNat 8 (ctSelect (shift l).2 p 0))
  rw [h1] at hs
  rw [hs]
  rcases shift_bit l with h | h
  · rw [h] at h2 ⊢
    have h3 : beNat (shift l).1 = 2 * beNat l := by
      rw [show (0 : Byte).toNat = 0 from rfl, Nat.mul_zero, Nat.add_zero] at h2; exact h2
    rw [if_neg (by omega), show ctSelect 0 p 0 = 0 from rfl, Nat.mod_eq_of_lt (by omega), h3]; rfl
  · rw [h] at h2 ⊢
    have h3 : beNat (shift l).1 + 256 ^ l.length = 2 * beNat l := by
      rw [show (1 : Byte).toNat = 1 from rfl, Nat.mul_one] at h2; exact h2
    rw [if_pos (by omega), show ctSelect 1 p 0 = p from rfl, ← h3, Nat.add_mod_right, Nat.mod_eq_of_lt hlt, BitVec.toNat_ofNat]

theorem xorAt_length (d : Bytes) (off : Nat) (b : Bytes) (h : off + b.length ≤ d.length) : (xorAt d off b).length = d.length := by
  unfold xorAt
  rw [List.length_append, List.length_append, List.length_take, List.length_zipWith, List.length_drop, List.length_drop]
  omega
theorem at8_xorAt (d : Bytes) (off : Nat) (b : Bytes) (h : off + b.length ≤ d.length) (i : Nat) (hi : i < d.length) :
    at8 (xorAt d off b) i = if off ≤ i ∧ i < off + b.length then at8 d i ^^^ at8 b (i - off) else at8 d i := by
  unfold xorAt
  have l1 : (d.take off).length = off := by rw [List.length_take]; omega
  have l2 : (List.zipWith (· ^^^ ·) (d.drop off) b).length = b.length := by rw [List.length_zipWith, List.length_drop]; omega
  rw [List.append_assoc]
  by_cases h1 : i < off
  · rw [at8_append_left _ _ _ (by omega), at8_take h1, if_neg (by omega)]
  by_cases h2 : i < off + b.length
  · rw [at8_append_right _ _ _ (by omega), l1, at8_append_left _ _ _ (by omega), at8_zipWith _ _ _ _ (by rw [List.length_drop]; omega) (by omega),
      at8_drop, show off + (i - off) = i by omega, if_pos (by omega)]
  · rw [at8_append_right _ _ _ (by omega), l1, at8_append_right _ _ _ (by omega), l2, at8_drop, if_neg (by omega)]
    congr 1; omega
theorem xorAt_zero (d b : Bytes) (h : b.length = d.length) : xorAt d 0 b = bxor d b := by
  refine Verif.ext_at8 ((xorAt_length _ _ _ (by omega)).trans (bxor_length h.symm).symm) fun i hi => ?_
  rw [xorAt_length _ _ _ (by omega)] at hi
  rw [at8_xorAt _ _ _ (by omega) i hi, if_pos (by omega), at8_bxor i hi (by omega)]; rfl

/-- A short block, extended with zeros. -/
def ext (n : Nat) (l : Bytes) : Bytes := l ++ zeros (n - l.length)
theorem ext_length {n : Nat} {l : Bytes} (h : l.length ≤ n) : (ext n l).length = n := by
  unfold ext; rw [List.length_append, zeros_length]; omega
theorem at8_ext (n : Nat) (l : Bytes) (i : Nat) : at8 (ext n l) i = if i < l.length then at8 l i else 0 := by
  unfold ext
  split
  · rw [at8_append_left _ _ _ (by assumption)]
  · rw [at8_append_right _ _ _ (by omega), at8_zeros]
theorem ext_full {n : Nat} {l : Bytes} (h : l.length = n) : ext n l = l := by
  unfold ext; rw [h, Nat.sub_self]; exact List.append_nil _
theorem ext_nil (n : Nat) : ext n [] = zeros n := rfl

theorem xorAt_ext {n : Nat} (c l p : Bytes) (hc : c.length = n) (h : l.length + p.length ≤ n) :
    xorAt (bxor c (ext n l)) l.length p = bxor c (ext n (l ++ p)) := by
  have e1 : (ext n l).length = n := ext_length (by omega)
  have e2 : (ext n (l ++ p)).length = n := ext_length (by rw [List.length_append]; omega)
  have e3 : (bxor c (ext n l)).length = n := by rw [bxor_length (by omega), hc]
  refine Verif.ext_at8 ((xorAt_length _ _ _ (by omega)).trans (by rw [bxor_length (by omega), bxor_length (by omega)])) fun i hi => ?_
  rw [xorAt_length _ _ _ (by omega), e3] at hi
  rw [at8_xorAt _ _ _ (by omega) i (by omega), at8_bxor i (by omega) (by omega), at8_bxor i (by omega) (by omega), at8_ext, at8_ext, List.length_append]
  by_cases h1 : i < l.length
  · rw [if_neg (by omega), if_pos h1, if_pos (by omega), at8_append_left _ _ _ h1]
  · rw [if_neg h1]
    by_cases h2 : i < l.length + p.length
    · rw [if_pos (by omega), if_pos h2, at8_append_right _ _ _ (by omega)]; simp
    · rw [if_neg (by omega), if_neg h2]

/-- The CBC chain. -/
def chain (E : Bytes → Bytes) (c : Bytes) (M : List Bytes) : Bytes := M.foldl (fun C Mi => E (bxor C Mi)) c

theorem chain_length {E : Bytes → Bytes} {n : Nat} (hE : ∀ b, b.length = n → (E b).length = n) (M : List Bytes) (hM : ∀ b ∈ M, b.length = n) :
    ∀ c : Bytes, c.length = n → (chain E c M).length = n := by
  induction M with
  | nil => intro c hc; exact hc
  | cons x xs ih =>
    intro c hc
    refine ih (fun b hb => hM b (List.mem_cons_of_mem _ hb)) _ (hE _ ?_)
    rw [bxor_length (by rw [hc, hM x List.mem_cons_self]), hc]

/-- The loop of Write is the chain over the blocks. -/
theorem loop_chain {E : Bytes → Bytes} {n : Nat} (hE : ∀ b, b.length = n → (E b).length = n) (M : List Bytes) (hM : ∀ b ∈ M, b.length = n) :
    ∀ c : Bytes, c.length = n → M.foldl (fun b x => E (xorAt b 0 x)) c = chain E c M := by
  induction M with
  | nil => intro c _; rfl
  | cons x xs ih =>
    intro c hc
    have hx := hM x List.mem_cons_self
    unfold chain
    rw [List.foldl_cons, List.foldl_cons, xorAt_zero _ _ (by omega)]
    exact ih (fun b hb => hM b (List.mem_cons_of_mem _ hb)) _ (hE _ (by rw [bxor_length (by omega), hc]))

/-- The object `d` (made from the object `d0`) has been given the message `m`. -/
structure Rep (d0 d : Cmac) (m : Bytes) : Prop where
  bs : d.bs = d0.bs
  E : d.E = d0.E
  k0 : d.k0 = d0.k0
  k1 : d.k1 = d0.k1
  tag : d.tagsize = d0.tagsize
  off : d.off = (lastBlock d0.bs m).length
  buf : d.buf = bxor (chain d0.E (zeros d0.bs) (initBlocks d0.bs m)) (ext d0.bs (lastBlock d0.bs m))

theorem initBlocks_mem {n : Nat} {m b : Bytes} (h : b ∈ initBlocks n m) : b.length = n := mem_fullBlocks_length _ _ _ h

variable {d0 : Cmac} (hpos : 0 < d0.bs) (hE : ∀ b, b.length = d0.bs → (d0.E b).length = d0.bs)
include hpos hE

theorem chain_len (m : Bytes) : (chain d0.E (zeros d0.bs) (initBlocks d0.bs m)).length = d0.bs :=
  chain_length hE _ (fun _ h => initBlocks_mem h) _ (zeros_length _)

/-- The part of `Write` after the buffer: from a chain value with nothing pending. -/
theorem blocks_tail {d : Cmac} {c : Bytes} (hd : d.bs = d0.bs) (hdE : d.E = d0.E) (ho : d.off = 0) (hb : d.buf = c) (hc : c.length = d0.bs) (p : Bytes) :
    (d.blocks p).1.tail (d.blocks p).2 = { d with off := (lastBlock d0.bs p).length, buf := bxor (chain d0.E c (initBlocks d0.bs p)) (ext d0.bs (lastBlock d0.bs p)) } := by
  subst hb
  have hbl : d.blocks p = ({ d with buf := chain d0.E d.buf (initBlocks d0.bs p) }, lastBlock d0.bs p) := by
    unfold Cmac.blocks
    split
    · rename_i hlt
      rw [hd] at hlt
      rw [hd, hdE]
      dsimp only
      have hnn : (if p.length = p.length / d0.bs * d0.bs then p.length / d0.bs * d0.bs - d0.bs else p.length / d0.bs * d0.bs) = (p.length - 1) / d0.bs * d0.bs := by
        have e := Nat.div_add_mod p.length d0.bs
        rw [Nat.mul_comm] at e
        split
        · rename_i h
          have hq : p.length / d0.bs * d0.bs = p.length := h.symm
          have hk : 1 ≤ p.length / d0.bs := Nat.div_pos (by omega) hpos
          have : (p.length - 1) / d0.bs = p.length / d0.bs - 1 := by
            rw [Nat.div_eq_iff hpos, Nat.sub_mul, Nat.one_mul]
            have := Nat.mul_le_mul_right d0.bs hk
            omega
          rw [this, Nat.sub_mul, Nat.one_mul]
        · rename_i h
          have : (p.length - 1) / d0.bs = p.length / d0.bs := by
            have := Nat.mod_lt p.length hpos
            rw [Nat.div_eq_iff hpos]
            omega
          rw [this]
      rw [hnn, Nat.mul_div_cancel _ hpos]
      have hcut := Spec.cut_eq d0.bs hpos p
      unfold Spec.cut at hcut
      have h1 := congrArg Prod.fst hcut
      have h2 := congrArg Prod.snd hcut
      dsimp only at h1 h2
      rw [h2, ← loop_chain hE _ (fun _ h => initBlocks_mem h) _ hc, ← h1, List.foldl_map]
    · rename_i hge
      rw [hd] at hge
      rw [initBlocks_le hpos (by omega), lastBlock_le hpos (by omega)]
      rfl
  rw [hbl]
  dsimp only
  have hcl : (chain d0.E d.buf (initBlocks d0.bs p)).length = d0.bs := chain_length hE _ (fun _ h => initBlocks_mem h) _ hc
  have hz : bxor (chain d0.E d.buf (initBlocks d0.bs p)) (ext d0.bs []) = chain d0.E d.buf (initBlocks d0.bs p) := by
    have := Spec.bxor_zeros (chain d0.E d.buf (initBlocks d0.bs p))
    rw [hcl] at this
    exact this
  unfold Cmac.tail
  split
  · have hx := xorAt_ext (n := d0.bs) (chain d0.E d.buf (initBlocks d0.bs p)) [] (lastBlock d0.bs p) hcl (by have := (lastBlock_length d0.bs p hpos).1; simpa using this)
    rw [hz] at hx
    dsimp only
    rw [ho, Nat.zero_add]
    exact congrArg (fun z => ({ d with off := (lastBlock d0.bs p).length, buf := z } : Cmac)) hx
  · rename_i h
    have hn : lastBlock d0.bs p = [] := List.eq_nil_of_length_eq_zero (by omega)
    rw [hn, hz]
    exact congrArg (fun z => ({ d with off := z, buf := chain d0.E d.buf (initBlocks d0.bs p) } : Cmac)) ho

theorem write_rep {d : Cmac} {m : Bytes} (h : Rep d0 d m) (p : Bytes) : (d.write p).2 = p.length ∧ Rep d0 (d.write p).1 (m ++ p) := by
  have hll := (lastBlock_length d0.bs m hpos).1
  have hcl := chain_len hpos hE m
  have hoff := h.off
  have hbuf := h.buf
  have h1 := h.bs; have h2 := h.E; have h3 := h.k0; have h4 := h.k1; have h5 := h.tag
  obtain ⟨dbs, dE, dk0, dk1, dbuf, doff, dtag⟩ := d
  dsimp only at h1 h2 h3 h4 h5 hoff hbuf
  subst h1 h2 h3 h4 h5
  unfold Cmac.write Cmac.fill
  dsimp only
  by_cases ho : 0 < doff
  · rw [if_pos ho]
    by_cases hp : d0.bs - doff < p.length
    · -- the held block is completed
      rw [if_pos hp]
      dsimp only
      obtain ⟨b1, b2⟩ := lazy_big (B := d0.bs) (m := m) (p := p) hpos (by omega)
      have htl : (p.take (d0.bs - doff)).length = d0.bs - doff := by rw [List.length_take]; omega
      have hl : (lastBlock d0.bs m ++ p.take (d0.bs - doff)).length = d0.bs := by rw [List.length_append, htl]; omega
      have hf : xorAt dbuf doff (p.take (d0.bs - doff)) = bxor (chain d0.E (zeros d0.bs) (initBlocks d0.bs m)) (lastBlock d0.bs m ++ p.take (d0.bs - doff)) := by
        have := xorAt_ext (n := d0.bs) _ (lastBlock d0.bs m) (p.take (d0.bs - doff)) hcl (by rw [htl]; omega)
        rw [ext_full hl, ← hoff] at this
        rw [hbuf, this]
      have hbt := blocks_tail hpos hE (d := ⟨d0.bs, d0.E, d0.k0, d0.k1, d0.E (xorAt dbuf doff (p.take (d0.bs - doff))), 0, d0.tagsize⟩)
        (c := d0.E (bxor (chain d0.E (zeros d0.bs) (initBlocks d0.bs m)) (lastBlock d0.bs m ++ p.take (d0.bs - doff)))) rfl rfl rfl (by dsimp only; rw [hf])
        (hE _ (by rw [bxor_length (by omega), hcl])) (p.drop (d0.bs - doff))
      have hch : chain d0.E (d0.E (bxor (chain d0.E (zeros d0.bs) (initBlocks d0.bs m)) (lastBlock d0.bs m ++ p.take (d0.bs - doff)))) (initBlocks d0.bs (p.drop (d0.bs - doff))) =
          chain d0.E (zeros d0.bs) (initBlocks d0.bs (m ++ p)) := by
        rw [b1]; unfold chain; rw [List.foldl_append, List.foldl_cons, hoff]
      have hdd : lastBlock d0.bs (m ++ p) = lastBlock d0.bs (p.drop (d0.bs - doff)) := by rw [b2, hoff]
      rw [hbt, hch, ← hdd]
      exact ⟨rfl, rfl, rfl, rfl, rfl, rfl, rfl, rfl⟩
    · rw [if_neg hp]
      dsimp only
      obtain ⟨b1, b2⟩ := lazy_small (B := d0.bs) (m := m) (p := p) hpos (by omega)
      refine ⟨rfl, rfl, rfl, rfl, rfl, rfl, ?_, ?_⟩
      · show doff + p.length = _
        rw [b2, List.length_append, hoff]
      · show xorAt dbuf doff p = _
        have := xorAt_ext (n := d0.bs) _ (lastBlock d0.bs m) p hcl (by omega)
        rw [b1, b2, ← this, hbuf, hoff]
  · rw [if_neg ho]
    dsimp only
    have hm : m = [] := by
      rcases Decidable.em (m = []) with e | e
      · exact e
      · have := (lastBlock_length d0.bs m hpos).2 e
        omega
    subst hm
    have hb0 : dbuf = zeros d0.bs := by
      rw [hbuf, initBlocks_le hpos (by simp), lastBlock_le hpos (by simp), ext_nil]
      have := Spec.bxor_zeros (zeros d0.bs)
      rw [zeros_length] at this
      exact this
    rw [blocks_tail (d := ⟨d0.bs, d0.E, d0.k0, d0.k1, dbuf, doff, d0.tagsize⟩) hpos hE rfl rfl (by dsimp only; omega) hb0 (zeros_length _) p, List.nil_append]
    exact ⟨rfl, rfl, rfl, rfl, rfl, rfl, rfl, rfl⟩

theorem reset_rep {d : Cmac} {m : Bytes} (h : Rep d0 d m) : Rep d0 d.reset [] := by
  have hl : d.buf.length = d0.bs := by
    rw [h.buf, bxor_length (by rw [chain_len hpos hE, ext_length (lastBlock_length d0.bs m hpos).1]), chain_len hpos hE]
  have h1 : initBlocks d0.bs [] = [] := initBlocks_le hpos (by simp)
  have h2 : lastBlock d0.bs [] = [] := lastBlock_le hpos (by simp)
  refine ⟨h.bs, h.E, h.k0, h.k1, h.tag, by rw [h2]; rfl, ?_⟩
  show zeros d.buf.length = _
  have := Spec.bxor_zeros (zeros d0.bs)
  rw [zeros_length] at this
  rw [hl, h1, h2, ext_nil]
  exact this.symm

omit hE in
theorem init_rep (ho : d0.off = 0) (hb : d0.buf = zeros d0.bs) : Rep d0 d0 [] := by
  have h1 : initBlocks d0.bs [] = [] := initBlocks_le hpos (by simp)
  have h2 : lastBlock d0.bs [] = [] := lastBlock_le hpos (by simp)
  refine ⟨rfl, rfl, rfl, rfl, rfl, by rw [h2]; exact ho, ?_⟩
  have := Spec.bxor_zeros (zeros d0.bs)
  rw [zeros_length] at this
  rw [hb, h1, h2, ext_nil]
  exact this.symm

/-- The tag. -/
theorem checkSum_eq {d : Cmac} {m : Bytes} (h : Rep d0 d m) (hk0 : d0.k0.length = d0.bs) (hk1 : d0.k1.length = d0.bs) :
    d.checkSum = (d0.E (bxor (chain d0.E (zeros d0.bs) (initBlocks d0.bs m))
      (if (lastBlock d0.bs m).length = d0.bs then bxor d0.k0 (lastBlock d0.bs m) else bxor d0.k1 (padBlock d0.bs (lastBlock d0.bs m))))).take d0.tagsize := by
  have hll := (lastBlock_length d0.bs m hpos).1
  have hcl := chain_len hpos hE m
  unfold Cmac.checkSum
  dsimp only
  rw [h.bs, h.E, h.tag, h.k0, h.k1, h.off]
  have hcp : ∀ k : Bytes, k.length = d0.bs → goCopy (zeros d0.bs) 0 k = k := by
    intro k hk
    rw [goCopy_full _ _ _ (by omega) (by rw [zeros_length]; omega), List.take_zero, List.nil_append, zeros_length, Nat.sub_zero, List.take_of_length_le (by omega)]
  have hel : (ext d0.bs (lastBlock d0.bs m)).length = d0.bs := ext_length hll
  have hbl : d.buf.length = d0.bs := by rw [h.buf, bxor_length (by omega), hcl]
  by_cases hf : (lastBlock d0.bs m).length = d0.bs
  · rw [if_neg (by omega), if_neg (by omega), if_pos hf, hcp _ hk0, xorAt_zero _ _ (by omega), h.buf, ext_full hf, ← Spec.bxor_assoc, Spec.bxor_comm d0.k0, Spec.bxor_assoc]
  · rw [if_pos (by omega), if_pos (by omega), if_neg hf, hcp _ hk1, xorAt_zero _ _ (by omega)]
    refine congrArg (fun z => (d0.E z).take d0.tagsize) ?_
    have hpl : (padBlock d0.bs (lastBlock d0.bs m)).length = d0.bs := by
      unfold padBlock; rw [List.length_append, List.length_append, zeros_length, List.length_singleton]; omega
    have l1 : (bxor d0.k1 d.buf).length = d0.bs := by rw [bxor_length (by omega), hk1]
    have l2 : (bxor d0.k1 (padBlock d0.bs (lastBlock d0.bs m))).length = d0.bs := by rw [bxor_length (by omega), hk1]
    have l3 : (bxor (chain d0.E (zeros d0.bs) (initBlocks d0.bs m)) (bxor d0.k1 (padBlock d0.bs (lastBlock d0.bs m)))).length = d0.bs := by rw [bxor_length (by omega), hcl]
    refine Verif.ext_at8 (by rw [List.length_set]; omega) fun i hi => ?_
    rw [List.length_set] at hi
    have hpad : at8 (padBlock d0.bs (lastBlock d0.bs m)) i = at8 (ext d0.bs (lastBlock d0.bs m)) i ^^^ (if (lastBlock d0.bs m).length = i then 0x80#8 else 0) := by
      rw [at8_ext]
      unfold padBlock
      by_cases h1 : i < (lastBlock d0.bs m).length
      · rw [List.append_assoc, at8_append_left _ _ _ h1, if_pos h1, if_neg (by omega)]; simp
      · rw [if_neg h1]
        by_cases h2 : (lastBlock d0.bs m).length = i
        · rw [if_pos h2, at8_append_left _ _ _ (by rw [List.length_append, List.length_singleton]; omega), at8_append_right _ _ _ (by omega), h2, Nat.sub_self]; rfl
        · rw [if_neg h2, at8_append_right _ _ _ (by rw [List.length_append, List.length_singleton]; omega), at8_zeros]; rfl
    rw [at8_set, at8_bxor (a := chain _ _ _) i (by omega) (by omega), at8_bxor (b := padBlock _ _) i (by omega) (by omega), hpad]
    by_cases h2 : (lastBlock d0.bs m).length = i
    · rw [if_pos ⟨h2, by omega⟩, if_pos h2, h2, at8_bxor i (by omega) (by omega), h.buf, at8_bxor i (by omega) (by omega)]
      ac_rfl
    · rw [if_neg (fun h => h2 h.1), if_neg h2, at8_bxor i (by omega) (by omega), h.buf, at8_bxor i (by omega) (by omega)]
      simp
      ac_rfl

end Verif.CMAC
