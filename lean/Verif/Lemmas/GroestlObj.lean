import Verif.Lemmas.GroestlDigest
import Mathlib.Tactic.IntervalCases
/-
The digest object of package groestl.
-/
namespace Verif.Groestl
open Spec.Groestl (P Q f cols)

theorem le64_swap (v : U64) : le64 (swap_uint64 v) = be64 v := by
  have h : ∀ i, i < 8 → (swap_uint64 v).extractLsb' (8 * i) 8 = v.extractLsb' (56 - 8 * i) 8 := by
    intro i hi
    apply BitVec.eq_of_getLsbD_eq
    intro j hj
    unfold swap_uint64
    interval_cases i <;> interval_cases j <;> simp [-BitVec.getLsbD_eq_getElem]
  unfold le64 be64
  simp only [List.cons.injEq, and_true]
  exact ⟨h 0 (by omega), h 1 (by omega), h 2 (by omega), h 3 (by omega), h 4 (by omega), h 5 (by omega), h 6 (by omega), h 7 (by omega)⟩

/-- What the words and the length counter are after the message `m`. -/
def St (hs : Nat) (s : List U64 × U64) (m : Bytes) : Prop :=
  s.1.length = 16 ∧ (uint64sToBytes s.1).take (BL hs) = (fullBlocks (BL hs) m).foldl (f (cols hs)) (Spec.Groestl.iv hs) ∧ s.2 = BitVec.ofNat 64 (8 * m.length)

structure Rep (hs : Nat) (d : Digest) (m : Bytes) : Prop where
  hhs : d.hs = hs
  hbs : d.bs = 8 * BL hs
  buf : LoopRep (BL hs) 128 (St hs) (d.s, d.len) d.x d.nx m

theorem BL_pos (hs : Nat) : 0 < BL hs := by unfold BL cols; split <;> omega
theorem BL_le (hs : Nat) : BL hs ≤ 128 := by unfold BL cols; split <;> omega
theorem BL_ge (hs : Nat) : 64 ≤ BL hs := by unfold BL cols; split <;> omega

theorem len_add (a b : Nat) : BitVec.ofNat 64 (8 * a) + BitVec.ofNat 64 b * 8 = BitVec.ofNat 64 (8 * (a + b)) := by
  rw [show (8 : U64) = BitVec.ofNat 64 8 from rfl, ← BitVec.ofNat_mul, ← BitVec.ofNat_add]; congr 1; omega

theorem reset_rep (hs : Nat) (hb : hs ≤ 512) (d : Digest) (h : d.hs = hs) : Rep hs d.reset [] := by
  refine ⟨h, ?_, ?_⟩
  · unfold Digest.reset BL cols
    dsimp only
    rw [h]
    by_cases hc : hs ≤ 256
    · rw [if_pos hc, if_neg (by omega)]
    · rw [if_neg hc, if_pos (by omega)]
  · refine LoopRep.init _ _ _ _ ⟨?_, ?_, rfl⟩
    · unfold Digest.reset; dsimp only; split <;> simp
    · unfold Digest.reset
      dsimp only
      rw [h, show fullBlocks (BL hs) ([] : Bytes) = [] from fullBlocks_nil _, List.foldl_nil]
      have e : BitVec.ofInt 64 (hs : Int) = BitVec.ofNat 64 hs := by simp
      unfold BL Spec.Groestl.iv cols
      by_cases hc : hs ≤ 256
      · rw [if_pos hc, if_neg (by omega), e, ← le64_swap, ← tb_take]
        generalize swap_uint64 _ = w
        rw [show ((List.replicate 16 (0 : U64)).set 7 w).take 8 = List.replicate 7 0 ++ [w] from rfl, tb_append, tb_cons]
        show _ ++ (le64 w ++ []) = _
        rw [List.append_nil]; rfl
      · rw [if_neg hc, if_pos (by omega), e, ← le64_swap, ← tb_take]
        generalize swap_uint64 _ = w
        rw [show ((List.replicate 16 (0 : U64)).set 15 w).take 16 = List.replicate 15 0 ++ [w] from rfl, tb_append, tb_cons]
        show _ ++ (le64 w ++ []) = _
        rw [List.append_nil]; rfl

theorem write_rep (hs : Nat) (d : Digest) (m p : Bytes) (h : Rep hs d m) : Rep hs (d.write p).1 (m ++ p) := by
  have hl : d.bs / 8 = BL hs := by rw [h.hbs]; omega
  refine ⟨h.hhs, h.hbs, ?_⟩
  unfold Digest.write
  dsimp only
  rw [hl]
  refine loopWrite_rep (BL hs) 128 (BL_pos hs) (BL_le hs) (St hs) _ _ ?_ ?_ (p.length + 1) (d.s, d.len) d.x d.nx m p h.buf (by omega)
  · intro s x m p hR hx hlen ht hf _
    obtain ⟨r1, r2, r3⟩ := hR
    obtain ⟨t1, t2⟩ := transform_eq hs d.bs h.hbs s.1 x r1 hx
    refine ⟨t2, ?_, ?_⟩
    · rw [t1, hf, List.foldl_append, ← r2, ht]; rfl
    · show s.2 + _ = _; rw [r3, len_add, List.length_append]
  · intro s m p hR _ hf _
    obtain ⟨r1, r2, r3⟩ := hR
    refine ⟨r1, by rw [hf]; exact r2, ?_⟩
    show s.2 + _ = _; rw [r3, len_add, List.length_append]

/-- Number of blocks that the counter holds at the end. -/
theorem count_one (L n : Nat) (hL : L = 64 ∨ L = 128) (hn : n < 2 ^ 60) (hfit : n % L + 1 ≤ L - 8) :
    (BitVec.ofNat 64 (8 * n) + 8 + (BitVec.ofNat 64 (8 * L) - BitVec.ofNat 64 (n % L + 1) * 8)) / BitVec.ofNat 64 (8 * L) = BitVec.ofNat 64 ((n + 9 + (L - 1)) / L) := by
  apply BitVec.eq_of_toNat_eq
  rw [BitVec.toNat_udiv, show (8 : U64) = BitVec.ofNat 64 8 from rfl]
  simp only [BitVec.toNat_add, BitVec.toNat_sub, BitVec.toNat_mul, BitVec.toNat_ofNat]
  rcases hL with rfl | rfl
  · simp only [Nat.reducePow, Nat.reduceMul, Nat.reduceMod, Nat.reduceSub, Nat.zero_mul, Nat.zero_mod] at *
    omega
  · simp only [Nat.reducePow, Nat.reduceMul, Nat.reduceMod, Nat.reduceSub, Nat.zero_mul, Nat.zero_mod] at *
    omega

theorem count_two (L n : Nat) (hL : L = 64 ∨ L = 128) (hn : n < 2 ^ 60) (hfit : ¬ n % L + 1 ≤ L - 8) :
    (BitVec.ofNat 64 (8 * n) + 8 + (BitVec.ofNat 64 (8 * L) - BitVec.ofNat 64 (n % L + 1) * 8) + (BitVec.ofNat 64 (8 * L) - BitVec.ofNat 64 0 * 8)) / BitVec.ofNat 64 (8 * L) =
      BitVec.ofNat 64 ((n + 9 + (L - 1)) / L) := by
  apply BitVec.eq_of_toNat_eq
  rw [BitVec.toNat_udiv, show (8 : U64) = BitVec.ofNat 64 8 from rfl]
  simp only [BitVec.toNat_add, BitVec.toNat_sub, BitVec.toNat_mul, BitVec.toNat_ofNat]
  rcases hL with rfl | rfl
  · simp only [Nat.reducePow, Nat.reduceMul, Nat.reduceMod, Nat.reduceSub, Nat.zero_mul, Nat.zero_mod] at *
    omega
  · simp only [Nat.reducePow, Nat.reduceMul, Nat.reduceMod, Nat.reduceSub, Nat.zero_mul, Nat.zero_mod] at *
    omega

theorem checkSum_eq (hs : Nat) (h1 : 8 ≤ hs) (h2 : hs ≤ 512) (d : Digest) (m : Bytes) (h : Rep hs d m) (hm : m.length < 2 ^ 60) :
    d.checkSum = some (Spec.Groestl.hash hs m) := by
  have hl : d.bs / 8 = BL hs := by rw [h.hbs]; omega
  have hp := BL_pos hs
  have hle := BL_le hs
  have hge := BL_ge hs
  have hL : BL hs = 64 ∨ BL hs = 128 := by unfold BL cols; split <;> omega
  obtain ⟨r1, r2, r3⟩ := h.buf.st
  dsimp only at r1 r2 r3
  have hxl := h.buf.xl
  have hnx := h.buf.hnx
  have hpend := h.buf.pend
  have hlt := h.buf.nx_lt hp
  have hmod : d.nx = m.length % BL hs := by rw [hnx, restBlock_length]
  have hxs : (d.x.set d.nx 0x80).length = 128 := by rw [List.length_set]; exact hxl
  have hcl : (goCopy (d.x.set d.nx 0x80) (d.nx + 1) (zeros (BL hs))).length = 128 := by rw [goCopy_length _ _ _ (by omega)]; exact hxs
  -- the last step, from a state and a buffer
  have hfin : ∀ (s : List U64) (x : Bytes), s.length = 16 → x.length = 128 → (f (cols hs) ((uint64sToBytes s).take (BL hs)) (x.take (BL hs))) =
      (fullBlocks (BL hs) (Spec.Groestl.pad (BL hs) m)).foldl (f (cols hs)) (Spec.Groestl.iv hs) →
      (if (BL hs : Int) - d.hs.tdiv 8 < 0 ∨ (BL hs : Int) - d.hs.tdiv 8 > BL hs then none
        else some (((uint64sToBytes (outputTransform d.bs (transform d.bs s x))).take (BL hs)).drop ((BL hs : Int) - d.hs.tdiv 8).toNat)) = some (Spec.Groestl.hash hs m) := by
    intro s x hsl hx he
    obtain ⟨t1, t2⟩ := transform_eq hs d.bs h.hbs s x hsl hx
    rw [output_eq hs d.bs h.hbs _ t2, t1, he, h.hhs]
    have e : ((hs : Int).tdiv 8) = ((hs / 8 : Nat) : Int) := by rw [Int.tdiv_eq_ediv_of_nonneg (by omega)]; rfl
    have hb : hs / 8 ≤ BL hs := by unfold BL cols; split <;> omega
    rw [e, if_neg (by omega), show ((BL hs : Int) - ((hs / 8 : Nat) : Int)).toNat = BL hs - hs / 8 by omega]
    rfl
  unfold Digest.checkSum
  dsimp only
  rw [hl]
  have hpad := fullBlocks_mdPad_one (BL hs) 0x80 (be64 (BitVec.ofNat 64 (Spec.Groestl.nblocks (BL hs) m))) m hp
  have hpad2 := fullBlocks_mdPad_two (BL hs) 0x80 (be64 (BitVec.ofNat 64 (Spec.Groestl.nblocks (BL hs) m))) m hp
  rw [be64_length] at hpad hpad2
  by_cases hc : d.nx + 1 > BL hs - 8
  · rw [if_pos hc]
    dsimp only
    have hcnt := count_two (BL hs) m.length hL hm (by omega)
    rw [← hmod, ← h.hbs] at hcnt
    obtain ⟨t1, t2⟩ := transform_eq hs d.bs h.hbs d.s (goCopy (d.x.set d.nx 0x80) (d.nx + 1) (zeros (BL hs))) r1 hcl
    have hgl : (goCopy (goCopy (d.x.set d.nx 0x80) (d.nx + 1) (zeros (BL hs))) 0 (zeros (BL hs))).length = 128 := by rw [goCopy_length _ _ _ (by omega)]; exact hcl
    refine hfin _ _ t2 (by rw [goCopy_length _ _ _ (by omega)]; exact hgl) ?_
    rw [lenBuf8 _ _ (by omega) (by omega) _ (le64_length _), zeroBuf _ _ (by omega), take_zeros _ _ (by omega), le64_swap, r3, hcnt, t1]
    show _ = List.foldl _ _ (fullBlocks (BL hs) (mdPad _ _ _ _))
    rw [hpad2 (by omega) (by omega), List.foldl_append, ← r2, ← hmod]
    rw [closeBuf 0x80 d.x d.nx (BL hs) _ (by omega) hlt hpend]
    rfl
  · rw [if_neg hc]
    dsimp only
    have hcnt := count_one (BL hs) m.length hL hm (by omega)
    rw [← hmod, ← h.hbs] at hcnt
    refine hfin _ _ r1 (by rw [goCopy_length _ _ _ (by omega)]; exact hcl) ?_
    rw [lenBuf8 _ _ (by omega) (by omega) _ (le64_length _), closeBuf 0x80 d.x d.nx (BL hs) _ (by omega) hlt hpend, le64_swap, r3, hcnt]
    show _ = List.foldl _ _ (fullBlocks (BL hs) (mdPad _ _ _ _))
    rw [hpad (by omega), List.foldl_append, ← r2, ← hmod]
    have : (restBlock (BL hs) m ++ (0x80 : Byte) :: zeros (BL hs - 1 - d.nx)).take (BL hs - 8) = restBlock (BL hs) m ++ (0x80 : Byte) :: zeros (BL hs - 1 - d.nx - 8) := by
      rw [List.take_append, ← hnx, List.take_of_length_le (by omega)]
      rw [show BL hs - 8 - d.nx = (BL hs - 1 - d.nx - 8) + 1 by omega, List.take_succ_cons, take_zeros _ _ (by omega)]
    rw [this, List.append_assoc]
    rfl

end Verif.Groestl
