import Verif.Lemmas.PMAC
import Verif.BufferX
/-
pmac: the invariant of Write, the tag, and the panic.
-/
namespace Verif.PMAC
open Verif.CMAC (xorAt initBlocks_mem xorAt_zero xorAt_length at8_xorAt)
open Verif.Spec (bxor beNat bxor_length at8_bxor padBlock ntz pmacL pmacSum)

/-- The block size and cipher of an object, and the bound on the number of blocks. -/
structure Ctx where
  bs : Nat
  E : Bytes → Bytes
  tag : Nat

def Ctx.L (c : Ctx) : Bytes := c.E (zeros c.bs)
/-- Offset and sum after some blocks. -/
def Ctx.sums (c : Ctx) (M : List Bytes) : Bytes × Bytes := pmacSum 0x87 c.E c.L 1 (zeros c.bs) (zeros c.bs) M

structure Ctx.Ok (c : Ctx) : Prop where
  pos : 0 < c.bs
  len : ∀ b, b.length = c.bs → (c.E b).length = c.bs

/-- The parts of the object that never change. -/
structure Base (c : Ctx) (d : Pmac) : Prop where
  bs : d.bs = c.bs
  E : d.E = c.E
  l : d.l = table (2 * c.bs - 1) c.L
  lInv : d.lInv = Spec.half 0x87 c.L
  tag : d.tagsize = c.tag
  bufl : d.buf.length = c.bs
  offl : d.offset.length = c.bs
  digl : d.digest.length = c.bs

/-- The blocks `M` have been processed. -/
structure Done (c : Ctx) (d : Pmac) (M : List Bytes) : Prop extends Base c d where
  off : d.offset = (c.sums M).1
  dig : d.digest = (c.sums M).2
  ctr : d.ctr = BitVec.ofNat 64 M.length

theorem sums_snoc (c : Ctx) (M : List Bytes) (b : Bytes) :
    c.sums (M ++ [b]) = (bxor (c.sums M).1 (pmacL 0x87 c.L (ntz (M.length + 1))),
      bxor (c.sums M).2 (c.E (bxor b (bxor (c.sums M).1 (pmacL 0x87 c.L (ntz (M.length + 1))))))) := by
  unfold Ctx.sums
  rw [pmacSum_append, Nat.add_comm]
  rfl

/-- The bound: the number of blocks the table and the counter allow. -/
def Ctx.K (c : Ctx) : Nat := 2 ^ min (2 * c.bs - 1) 63

variable {c : Ctx} (hc : c.Ok)
include hc

theorem L_length : c.L.length = c.bs := hc.len _ (zeros_length _)

theorem processBuffer_spec {d : Pmac} {M : List Bytes} (h : Done c d M) (hM : M.length + 1 < c.K) :
    ∃ d', d.processBuffer = some d' ∧ Done c d' (M ++ [d.buf]) ∧ d'.pos = 0 := by
  have hL := L_length hc
  have hK : M.length + 1 < 2 ^ (2 * c.bs - 1) := Nat.lt_of_lt_of_le hM (Nat.pow_le_pow_right (by omega) (Nat.min_le_left _ _))
  have hK2 : M.length + 1 < 2 ^ 64 := Nat.lt_of_lt_of_le hM (Nat.pow_le_pow_right (by omega) (Nat.le_trans (Nat.min_le_right _ _) (by omega)))
  have hctr : d.ctr + 1 = BitVec.ofNat 64 (M.length + 1) := by rw [h.ctr]; apply BitVec.eq_of_toNat_eq; simp
  have hz := ntz_lt (n := M.length + 1) (by omega) hK
  have hl : d.l[trailingZeros (d.ctr + 1)]? = some (pmacL 0x87 c.L (ntz (M.length + 1))) := by
    rw [hctr, trailingZeros_eq (by omega) hK2, h.l, table_get _ _ (by rw [hL]; exact hc.pos), if_pos hz]
  have hll := pmacL_length 0x87 c.L (ntz (M.length + 1))
  have h1 : xor d.offset (pmacL 0x87 c.L (ntz (M.length + 1))) = bxor (c.sums M).1 (pmacL 0x87 c.L (ntz (M.length + 1))) := by
    unfold xor; rw [xorAt_zero _ _ (by rw [hll, hL, h.offl]), h.off]
  have l1 : (bxor (c.sums M).1 (pmacL 0x87 c.L (ntz (M.length + 1)))).length = c.bs := by
    have := h.offl; rw [h.off] at this
    rw [bxor_length (by omega), this]
  have h2 : xor d.buf (bxor (c.sums M).1 (pmacL 0x87 c.L (ntz (M.length + 1)))) = bxor d.buf (bxor (c.sums M).1 (pmacL 0x87 c.L (ntz (M.length + 1)))) := by
    unfold xor; rw [xorAt_zero _ _ (by rw [h.bufl, l1])]
  have l2 : (bxor d.buf (bxor (c.sums M).1 (pmacL 0x87 c.L (ntz (M.length + 1))))).length = c.bs := by rw [bxor_length (by rw [h.bufl, l1]), h.bufl]
  have l3 := hc.len _ l2
  have h3 : xor d.digest (c.E (bxor d.buf (bxor (c.sums M).1 (pmacL 0x87 c.L (ntz (M.length + 1)))))) = bxor (c.sums M).2 (c.E (bxor d.buf (bxor (c.sums M).1 (pmacL 0x87 c.L (ntz (M.length + 1)))))) := by
    unfold xor; rw [xorAt_zero _ _ (by rw [l3, h.digl]), h.dig]
  have l4 : (bxor (c.sums M).2 (c.E (bxor d.buf (bxor (c.sums M).1 (pmacL 0x87 c.L (ntz (M.length + 1))))))).length = c.bs := by
    have := h.digl; rw [h.dig] at this
    rw [bxor_length (by omega), this]
  unfold Pmac.processBuffer
  rw [hl]
  dsimp only
  rw [h1, h2, h.E, h3]
  refine ⟨_, rfl, ⟨⟨h.bs, rfl, h.l, h.lInv, h.tag, l3, l1, l4⟩, ?_, ?_, ?_⟩, rfl⟩
  · show bxor _ _ = _; rw [sums_snoc]
  · show bxor _ _ = _; rw [sums_snoc]
  · show d.ctr + 1 = _; rw [hctr, List.length_append, List.length_singleton]

omit hc in
theorem done_buf {d : Pmac} {M : List Bytes} (h : Done c d M) (b : Bytes) (hb : b.length = c.bs) : Done c { d with buf := b } M :=
  ⟨⟨h.bs, h.E, h.l, h.lInv, h.tag, hb, h.offl, h.digl⟩, h.off, h.dig, h.ctr⟩

theorem step_spec {d : Pmac} {M : List Bytes} (h : Done c d M) (b : Bytes) (hb : b.length = c.bs) (hM : M.length + 1 < c.K) :
    ∃ d', step (some d) b = some d' ∧ Done c d' (M ++ [b]) ∧ d'.pos = 0 := by
  have e : goCopy d.buf 0 b = b := by
    rw [goCopy_full _ _ _ (by omega) (by rw [h.bufl]; omega), List.take_zero, List.nil_append, h.bufl, Nat.sub_zero, List.take_of_length_le (by omega)]
  unfold step
  dsimp only
  rw [e]
  exact processBuffer_spec hc (done_buf h b hb) hM

theorem fold_spec (Ms : List Bytes) : ∀ {d : Pmac} {M : List Bytes}, Done c d M → (∀ b ∈ Ms, b.length = c.bs) → M.length + Ms.length < c.K →
    ∃ d', Ms.foldl step (some d) = some d' ∧ Done c d' (M ++ Ms) ∧ (d.pos = 0 → d'.pos = 0) ∧ (Ms = [] → d' = d) := by
  induction Ms with
  | nil => intro d M h _ _; exact ⟨d, rfl, by rw [List.append_nil]; exact h, id, fun _ => rfl⟩
  | cons x xs ih =>
    intro d M h hb hM
    rw [List.length_cons] at hM
    obtain ⟨d1, e1, h1, p1⟩ := step_spec hc h x (hb x List.mem_cons_self) (by omega)
    obtain ⟨d2, e2, h2, p2, _⟩ := ih h1 (fun b hb' => hb b (List.mem_cons_of_mem _ hb')) (by rw [List.length_append, List.length_singleton]; omega)
    refine ⟨d2, by rw [List.foldl_cons, e1, e2], by rw [List.append_assoc] at h2; exact h2, fun _ => p2 p1, fun h => by cases h⟩

/-- The object has been given the message `m`. -/
structure Rep (c : Ctx) (d : Pmac) (m : Bytes) : Prop where
  done : Done c d (initBlocks c.bs m)
  pos : d.pos = (lastBlock c.bs m).length
  held : d.buf.take d.pos = lastBlock c.bs m

omit hc in
theorem initBlocks_length (n : Nat) (m : Bytes) (hn : 0 < n) : (initBlocks n m).length = (m.length - 1) / n := by
  unfold initBlocks
  rw [fullBlocks_length, List.length_take]
  have hle : (m.length - 1) / n * n ≤ m.length := by have := Nat.div_mul_le_self (m.length - 1) n; omega
  rw [Nat.min_eq_left hle, Nat.mul_div_cancel _ hn]
omit hc in
theorem blocks_lt {n K : Nat} {m : Bytes} (hn : 0 < n) (hK : 0 < K) (h : m.length ≤ n * K) : (initBlocks n m).length < K := by
  rw [initBlocks_length n m hn]
  rw [Nat.div_lt_iff_lt_mul hn, Nat.mul_comm]
  have := Nat.mul_pos hn hK
  omega
theorem K_pos : 0 < c.K := Nat.two_pow_pos _

/-- The last stage. -/
theorem rest_spec {d : Pmac} {M : List Bytes} (h : Done c d M) (l q : Bytes) (hp : d.pos = l.length) (hh : d.buf.take d.pos = l) (hq : l.length + q.length ≤ c.bs) :
    Done c (d.rest q) M ∧ (d.rest q).pos = (l ++ q).length ∧ (d.rest q).buf.take (d.rest q).pos = l ++ q := by
  unfold Pmac.rest
  split
  · have hl := goCopy_length d.buf d.pos q (by rw [h.bufl]; omega)
    refine ⟨⟨⟨h.bs, h.E, h.l, h.lInv, h.tag, by show (goCopy d.buf d.pos q).length = _; rw [hl, h.bufl], h.offl, h.digl⟩, h.off, h.dig, h.ctr⟩, ?_, ?_⟩
    · show d.pos + q.length = _; rw [hp, List.length_append]
    · show (goCopy d.buf d.pos q).take (d.pos + q.length) = _
      rw [goCopy_take _ _ _ (by rw [h.bufl]; omega), hh]
  · have : q = [] := List.eq_nil_of_length_eq_zero (by omega)
    subst this
    rw [List.append_nil]
    exact ⟨h, hp, hh⟩

theorem write_rep {d : Pmac} {m : Bytes} (h : Rep c d m) (p : Bytes) (hm : (m ++ p).length ≤ c.bs * c.K) :
    ∃ d', d.write p = some (d', p.length) ∧ Rep c d' (m ++ p) := by
  have hll := (lastBlock_length c.bs m hc.pos).1
  have hlt := blocks_lt hc.pos (K_pos hc) hm
  have hbs := h.done.bs
  have hp := h.pos
  unfold Pmac.write
  rw [hbs]
  dsimp only
  by_cases hf : c.bs - d.pos < p.length
  · obtain ⟨b1, b2⟩ := lazy_big (B := c.bs) (m := m) (p := p) hc.pos (by omega)
    have htl : (p.take (c.bs - d.pos)).length = c.bs - d.pos := by rw [List.length_take]; omega
    have e : d.fill p = (Pmac.processBuffer { d with buf := lastBlock c.bs m ++ p.take (c.bs - d.pos) }, p.drop (c.bs - d.pos)) := by
      unfold Pmac.fill
      dsimp only
      rw [hbs, if_pos hf]
      have : goCopy d.buf d.pos (p.take (c.bs - d.pos)) = lastBlock c.bs m ++ p.take (c.bs - d.pos) := by
        have hb := h.done.bufl
        rw [goCopy_full _ _ _ (by rw [hb]; omega) (by rw [hb, htl]; omega), h.held, List.take_of_length_le (by rw [hb, htl]; omega)]
      rw [this]
    rw [← hp] at b1 b2
    have hlen := congrArg List.length b1
    rw [List.length_append, List.length_cons] at hlen
    obtain ⟨d1, e1, h1, p1⟩ := processBuffer_spec hc (done_buf h.done (lastBlock c.bs m ++ p.take (c.bs - d.pos)) (by rw [List.length_append, htl]; omega)) (by omega)
    obtain ⟨d2, e2, h2, p2, _⟩ := fold_spec hc (initBlocks c.bs (p.drop (c.bs - d.pos))) h1 (fun b hb => initBlocks_mem hb) (by rw [List.length_append, List.length_singleton]; omega)
    have hd2 : Done c d2 (initBlocks c.bs (m ++ p)) := by rw [b1]; rw [List.append_assoc] at h2; exact h2
    obtain ⟨r1, r2, r3⟩ := rest_spec hc hd2 [] (lastBlock c.bs (p.drop (c.bs - d.pos))) (p2 p1) (by rw [p2 p1]; rfl) (by
      have := (lastBlock_length c.bs (p.drop (c.bs - d.pos)) hc.pos).1
      rw [List.length_nil]; omega)
    rw [e]
    dsimp only
    rw [e1, lazyLoop_spec step hc.pos _ _ _ (Nat.le_refl _), e2]
    refine ⟨_, rfl, r1, ?_, ?_⟩
    · rw [r2, b2]; rfl
    · rw [r3, b2]; rfl
  · obtain ⟨b1, b2⟩ := lazy_small (B := c.bs) (m := m) (p := p) hc.pos (by omega)
    have e : d.fill p = (some d, p) := by
      unfold Pmac.fill
      dsimp only
      rw [hbs, if_neg hf]
    obtain ⟨r1, r2, r3⟩ := rest_spec hc h.done (lastBlock c.bs m) p hp h.held (by omega)
    rw [e]
    dsimp only
    rw [lazyLoop_spec step hc.pos _ _ _ (Nat.le_refl _), initBlocks_le hc.pos (by omega), lastBlock_le hc.pos (by omega)]
    refine ⟨_, rfl, ?_, ?_, ?_⟩
    · rw [b1]; exact r1
    · rw [r2, b2]
    · rw [r3, b2]

omit hc in
theorem sums_nil : c.sums [] = (zeros c.bs, zeros c.bs) := rfl
theorem reset_rep {d : Pmac} (h : Base c d) : Rep c d.reset [] := by
  have h1 : initBlocks c.bs [] = [] := initBlocks_le hc.pos (by simp)
  have h2 : lastBlock c.bs [] = [] := lastBlock_le hc.pos (by simp)
  refine ⟨?_, by rw [h2]; rfl, by rw [h2]; rfl⟩
  rw [h1]
  refine ⟨⟨h.bs, h.E, h.l, h.lInv, h.tag, ?_, ?_, ?_⟩, ?_, ?_, rfl⟩
  · show (zeros d.buf.length).length = _; rw [zeros_length, h.bufl]
  · show (zeros d.offset.length).length = _; rw [zeros_length, h.offl]
  · show (zeros d.digest.length).length = _; rw [zeros_length, h.digl]
  · show zeros d.offset.length = zeros c.bs; rw [h.offl]
  · show zeros d.digest.length = zeros c.bs; rw [h.digl]

theorem checkSum_eq {d : Pmac} {m : Bytes} (h : Rep c d m) :
    d.checkSum = c.E (if (lastBlock c.bs m).length = c.bs then bxor (bxor (c.sums (initBlocks c.bs m)).2 (lastBlock c.bs m)) (Spec.half 0x87 c.L)
      else bxor (c.sums (initBlocks c.bs m)).2 (padBlock c.bs (lastBlock c.bs m))) := by
  have hll := (lastBlock_length c.bs m hc.pos).1
  have hdl : (c.sums (initBlocks c.bs m)).2.length = c.bs := by rw [← h.done.dig]; exact h.done.digl
  have hhl : (Spec.half 0x87 c.L).length = c.bs := by unfold Spec.half; rw [Spec.beBytes_length, L_length hc]
  unfold Pmac.checkSum
  rw [h.done.bs, h.done.E, h.pos, h.done.dig, h.done.lInv]
  refine congrArg c.E ?_
  by_cases hf : (lastBlock c.bs m).length = c.bs
  · have hb : d.buf = lastBlock c.bs m := by
      have := h.held
      rw [h.pos, hf, List.take_of_length_le (by rw [h.done.bufl]; omega)] at this
      exact this
    rw [if_pos hf, if_pos hf, hb]
    unfold xor
    rw [xorAt_zero (c.sums (initBlocks c.bs m)).2 _ (by omega), xorAt_zero _ _ (by rw [bxor_length (by omega)]; omega)]
  · rw [if_neg hf, if_neg hf]
    have hb : d.buf.take (lastBlock c.bs m).length = lastBlock c.bs m := by rw [← h.pos]; exact h.held
    rw [hb]
    dsimp only
    unfold xor
    generalize (c.sums (initBlocks c.bs m)).2 = S at hdl ⊢
    generalize lastBlock c.bs m = l at hll hf ⊢
    have hpl : (padBlock c.bs l).length = c.bs := by
      unfold padBlock; rw [List.length_append, List.length_append, zeros_length, List.length_singleton]; omega
    refine Verif.ext_at8 (by rw [List.length_set, xorAt_length _ _ _ (by omega), bxor_length (by omega)]) fun i hi => ?_
    rw [List.length_set, xorAt_length _ _ _ (by omega)] at hi
    have hpad : at8 (padBlock c.bs l) i = (if i < l.length then at8 l i else 0) ^^^ (if l.length = i then 0x80#8 else 0) := by
      unfold padBlock
      by_cases h1 : i < l.length
      · rw [List.append_assoc, at8_append_left _ _ _ h1, if_pos h1, if_neg (by omega)]; simp
      · rw [if_neg h1]
        by_cases h2 : l.length = i
        · rw [if_pos h2, at8_append_left _ _ _ (by rw [List.length_append, List.length_singleton]; omega), at8_append_right _ _ _ (by omega), h2, Nat.sub_self]; rfl
        · rw [if_neg h2, at8_append_right _ _ _ (by rw [List.length_append, List.length_singleton]; omega), at8_zeros]; rfl
    rw [at8_set, at8_bxor i (by omega) (by omega), hpad, xorAt_length _ _ _ (by omega), at8_xorAt _ _ _ (by omega) i (by omega)]
    by_cases h2 : l.length = i
    · subst h2
      rw [if_pos ⟨rfl, by omega⟩, if_pos rfl, if_neg (by omega), at8_xorAt _ _ _ (by omega) _ (by omega), if_neg (by omega)]; simp
    · rw [if_neg (fun h => h2 h.1), if_neg h2]
      by_cases h1 : i < l.length
      · rw [if_pos (by omega), if_pos h1]; simp
      · rw [if_neg (by omega), if_neg h1]; simp

theorem checkSum_length {d : Pmac} {m : Bytes} (h : Rep c d m) : d.checkSum.length = c.bs := by
  rw [checkSum_eq hc h]
  refine hc.len _ ?_
  have hll := (lastBlock_length c.bs m hc.pos).1
  have hdl : (c.sums (initBlocks c.bs m)).2.length = c.bs := by rw [← h.done.dig]; exact h.done.digl
  have hhl : (Spec.half 0x87 c.L).length = c.bs := by unfold Spec.half; rw [Spec.beBytes_length, L_length hc]
  split
  · rw [bxor_length (by rw [bxor_length (by omega)]; omega), bxor_length (by omega), hdl]
  · rw [bxor_length, hdl]
    unfold padBlock; rw [List.length_append, List.length_append, zeros_length, List.length_singleton]; omega

/-! ### The panic -/

omit hc in
theorem foldl_step_none (l : List Bytes) : l.foldl step none = none := by
  induction l with
  | nil => rfl
  | cons x xs ih => rw [List.foldl_cons]; exact ih

theorem step_panics {d : Pmac} {M : List Bytes} (h : Done c d M) (b : Bytes) (hk : 2 * c.bs - 1 < 64) (hM : M.length + 1 = 2 ^ (2 * c.bs - 1)) :
    step (some d) b = none := by
  have hK2 : M.length + 1 < 2 ^ 64 := by rw [hM]; exact Nat.pow_lt_pow_right (by omega) hk
  have hctr : d.ctr + 1 = BitVec.ofNat 64 (M.length + 1) := by rw [h.ctr]; apply BitVec.eq_of_toNat_eq; simp
  unfold step Pmac.processBuffer
  dsimp only
  rw [hctr, trailingZeros_eq (by omega) hK2, h.l, table_get _ _ (by rw [L_length hc]; exact hc.pos), hM, ntz_pow, if_neg (by omega)]

/-- From a fresh object, a message of more than `2^(2 bs - 1)` blocks makes `Write` panic. -/
theorem write_panics {d : Pmac} (h : Rep c d []) (p : Bytes) (hk : 2 * c.bs - 1 < 64) (hp : c.bs * 2 ^ (2 * c.bs - 1) < p.length) :
    d.write p = none := by
  have h1 : initBlocks c.bs [] = [] := initBlocks_le hc.pos (by simp)
  have h2 : lastBlock c.bs [] = [] := lastBlock_le hc.pos (by simp)
  have hd : Done c d [] := by have := h.done; rw [h1] at this; exact this
  have hpos : d.pos = 0 := by rw [h.pos, h2]; rfl
  have hbs := h.done.bs
  have hP := Nat.two_pow_pos (2 * c.bs - 1)
  have hbig : c.bs ≤ c.bs * 2 ^ (2 * c.bs - 1) := Nat.le_mul_of_pos_right _ hP
  have htl : (p.take c.bs).length = c.bs := by rw [List.length_take]; omega
  have hfill : d.fill p = (step (some d) (p.take c.bs), p.drop c.bs) := by
    unfold Pmac.fill step
    dsimp only
    rw [hbs, hpos, Nat.sub_zero, if_pos (by omega)]
  unfold Pmac.write
  dsimp only
  rw [hfill, hbs]
  dsimp only
  rw [lazyLoop_spec step hc.pos _ _ _ (Nat.le_refl _)]
  have hsplit : initBlocks c.bs p = p.take c.bs :: initBlocks c.bs (p.drop c.bs) := by
    have := initBlocks_append (B := c.bs) (a := p.take c.bs) (b := p.drop c.bs) hc.pos (by rw [htl, Nat.mod_self]) (by
      intro h; have := congrArg List.length h; rw [List.length_drop, List.length_nil] at this; omega)
    rw [List.take_append_drop, fullBlocks_one _ _ hc.pos htl] at this
    exact this
  have hfold : (initBlocks c.bs (p.drop c.bs)).foldl step (step (some d) (p.take c.bs)) = (initBlocks c.bs p).foldl step (some d) := by
    rw [hsplit, List.foldl_cons]
  rw [hfold]
  have hlen : 2 ^ (2 * c.bs - 1) ≤ (initBlocks c.bs p).length := by
    rw [initBlocks_length _ _ hc.pos, Nat.le_div_iff_mul_le hc.pos, Nat.mul_comm]; omega
  obtain ⟨A, b, B, hAB, hA⟩ : ∃ A b B, initBlocks c.bs p = A ++ b :: B ∧ A.length + 1 = 2 ^ (2 * c.bs - 1) := by
    refine ⟨(initBlocks c.bs p).take (2 ^ (2 * c.bs - 1) - 1), (initBlocks c.bs p)[2 ^ (2 * c.bs - 1) - 1]'(by omega), (initBlocks c.bs p).drop (2 ^ (2 * c.bs - 1) - 1 + 1), ?_, ?_⟩
    · rw [List.getElem_cons_drop, List.take_append_drop]
    · rw [List.length_take]; omega
  have hK : c.K = 2 ^ (2 * c.bs - 1) := by unfold Ctx.K; rw [Nat.min_eq_left (by omega)]
  obtain ⟨d1, e1, g1, _⟩ := fold_spec hc A hd (fun b hb => initBlocks_mem (m := p) (by rw [hAB]; exact List.mem_append_left _ hb)) (by rw [hK, List.length_nil]; omega)
  rw [hAB, List.foldl_append, e1, List.foldl_cons, step_panics hc g1 b hk (by rw [List.nil_append]; exact hA), foldl_step_none]
  rfl

end Verif.PMAC
