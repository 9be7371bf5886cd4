import Verif.Lemmas.BMW
/-
The digest object of package bmw.
-/
namespace Verif.BMW

variable {w : Nat} (c : Cfg w) (F : List (BitVec w) → Bytes → List (BitVec w))

/-- What the object needs of a configuration: its block function is `F` on states of sixteen words. -/
structure Ok : Prop where
  big : 8 < c.limit
  len : ∀ s b, s.length = 16 → b.length = c.limit → (processBlock c s b).length = 16
  eq : ∀ s b, s.length = 16 → b.length = c.limit → processBlock c s b = F s b
  fin : c.final.length = 16

def St (iv : List (BitVec w)) (s : List (BitVec w) × U64) (m : Bytes) : Prop :=
  s.1 = (fullBlocks c.limit m).foldl F iv ∧ s.1.length = 16 ∧ s.2 = BitVec.ofNat 64 (8 * m.length)

structure Rep (iv : List (BitVec w)) (hs : Nat) (d : Digest w) (m : Bytes) : Prop where
  hi : d.initVal = iv
  hh : d.hs = hs
  h2 : d.h2.length = 16
  buf : LoopRep c.limit c.limit (St c F iv) (d.s, d.len) d.x d.nx m

variable {c F}

theorem goCopy_16 (iv : List (BitVec w)) (x : List (BitVec w)) (hx : x.length = 16) (h : iv.length = 16) : goCopy x 0 iv = iv :=
  goCopy_zero_all _ _ (by omega)

theorem reset_rep (iv : List (BitVec w)) (hs : Nat) (h : iv.length = 16) (d : Digest w) (h1 : d.initVal = iv) (h2 : d.hs = hs) : Rep c F iv hs (reset c d) [] := by
  refine ⟨h1, h2, List.length_replicate, LoopRep.init _ _ _ _ ?_⟩
  unfold St
  rw [fullBlocks_nil, show (reset c d).s = goCopy (List.replicate 16 0) 0 d.initVal from rfl, h1, goCopy_16 iv _ List.length_replicate h]
  exact ⟨rfl, h, rfl⟩

theorem len_add (a b : Nat) : BitVec.ofNat 64 (8 * a) + BitVec.ofNat 64 b * 8 = BitVec.ofNat 64 (8 * (a + b)) := by
  apply BitVec.eq_of_toNat_eq
  simp only [BitVec.toNat_add, BitVec.toNat_mul, BitVec.toNat_ofNat, show (8 : U64).toNat = 8 from rfl, Nat.reducePow]
  omega

theorem write_rep (ok : Ok c F) (iv : List (BitVec w)) (hs : Nat) (d : Digest w) (m q : Bytes) (h : Rep c F iv hs d m) : Rep c F iv hs (write c d q).1 (m ++ q) := by
  have hB := ok.big
  refine ⟨h.hi, h.hh, h.h2, ?_⟩
  unfold write
  dsimp only
  refine loopWrite_rep c.limit c.limit (by omega) (Nat.le_refl _) (St c F iv) _ _ ?_ ?_ (q.length + 1) (d.s, d.len) d.x d.nx m q h.buf (by omega)
  · intro s x m q hR hx _ ht hf _
    obtain ⟨a, b, e⟩ := hR
    have hx' : x = restBlock c.limit m ++ q := by rw [← ht, List.take_of_length_le (by omega)]
    refine ⟨?_, ok.len _ _ b hx, ?_⟩
    · show processBlock c s.1 x = _
      rw [hf, List.foldl_append, ← a, ok.eq _ _ b hx, hx']; rfl
    · show s.2 + BitVec.ofNat 64 q.length * 8 = _
      rw [e, len_add, List.length_append]
  · intro s m q hR _ hf _
    obtain ⟨a, b, e⟩ := hR
    refine ⟨?_, b, ?_⟩
    · show s.1 = _
      rw [hf]; exact a
    · show s.2 + BitVec.ofNat 64 q.length * 8 = _
      rw [e, len_add, List.length_append]

theorem le64_length' (v : U64) : (le64 v).length = 8 := rfl

/-- The padding computed in the buffer. -/
theorem pad_eq (ok : Ok c F) (iv : List (BitVec w)) (hs : Nat) (d : Digest w) (m : Bytes) (h : Rep c F iv hs d m) :
    checkSum c d = c.bytes ((c.compress c.final ((fullBlocks c.limit (Spec.BMW.pad c.limit m)).foldl F iv)).drop (16 - hs >>> c.shift)) := by
  have hB := ok.big
  have hn := h.buf.nx_lt (by omega)
  have hx := h.buf.xl
  have hr : (restBlock c.limit m).length = d.nx := h.buf.hnx.symm
  have hm : d.nx = m.length % c.limit := by rw [← hr, restBlock_length]
  obtain ⟨a, b, e⟩ := h.buf.st
  dsimp only at a b e
  have hmk : goCopy (d.x.set d.nx 0x80) (d.nx + 1) (zeros c.limit) = restBlock c.limit m ++ 0x80 :: zeros (c.limit - 1 - d.nx) := by
    show markBuf d.x d.nx 0x80 c.limit = _
    rw [markBuf_eq _ _ _ _ (by omega) (by omega), h.buf.pend, hx]
  unfold checkSum
  dsimp only
  rw [goCopy_16 _ _ h.h2 ok.fin, h.hh]
  congr 3
  rw [e]
  unfold Spec.BMW.pad
  by_cases hc : d.nx + 1 > c.limit - 8
  · rw [if_pos hc, fullBlocks_mdPad_two c.limit 0x80 _ m (by omega) (by rw [le64_length']; omega) (by rw [← hm, le64_length']; omega), List.foldl_append, ← a, hmk]
    dsimp only
    have hl : (restBlock c.limit m ++ 0x80 :: zeros (c.limit - 1 - d.nx)).length = c.limit := by
      rw [List.length_append, List.length_cons, zeros_length, hr]; omega
    rw [goCopy_zero_all _ _ (by rw [hl, zeros_length]), goCopy_end _ _ _ (by rw [zeros_length, le64_length']; omega), take_zeros _ _ (by omega),
      ok.eq _ _ (ok.len _ _ b hl) (by rw [List.length_append, zeros_length, le64_length']; omega), ok.eq _ _ b hl, ← hm, le64_length']
    rfl
  · rw [if_neg hc, fullBlocks_mdPad_one c.limit 0x80 _ m (by omega) (by rw [← hm, le64_length']; omega), List.foldl_append, ← a]
    dsimp only
    rw [hmk]
    have hl : (restBlock c.limit m ++ 0x80 :: zeros (c.limit - 1 - d.nx)).length = c.limit := by
      rw [List.length_append, List.length_cons, zeros_length, hr]; omega
    have ht : (restBlock c.limit m ++ 0x80 :: zeros (c.limit - 1 - d.nx)).take (c.limit - 8) = restBlock c.limit m ++ 0x80 :: zeros (c.limit - 1 - d.nx - 8) := by
      rw [List.take_append, List.take_of_length_le (by omega), hr, show c.limit - 8 - d.nx = (c.limit - 1 - d.nx - 8) + 1 by omega, List.take_succ_cons, take_zeros _ _ (by omega)]
    rw [goCopy_end _ _ _ (by rw [hl, le64_length']; omega), ht, ok.eq _ _ b (by rw [List.length_append, List.length_append, List.length_cons, zeros_length, le64_length', hr]; omega), ← hm, le64_length',
      List.append_assoc]
    rfl

theorem refines (ok : Ok c F) (iv : List (BitVec w)) (hs : Nat) (hiv : iv.length = 16) (H : Bytes → Bytes)
    (hH : ∀ m, c.bytes ((c.compress c.final ((fullBlocks c.limit (Spec.BMW.pad c.limit m)).foldl F iv)).drop (16 - hs >>> c.shift)) = H m) :
    Refines (impl c) (newDigest c iv hs) { H := H, size := hs, blockSize := c.limit } := by
  refine refines_of_sim (impl c) _ _ (Rep c F iv hs) ?_ ?_ ?_ ?_ ?_ ?_
  · exact reset_rep iv hs hiv _ (goCopy_16 iv _ List.length_replicate hiv) rfl
  · intro s m p h; exact ⟨(write c s p).1, rfl, write_rep ok iv hs s m p h⟩
  · intro s m b h
    refine ⟨s, ?_, h⟩
    show some (s, b ++ checkSum c s) = _
    rw [pad_eq ok iv hs s m h, hH]
  · intro s m h; exact reset_rep iv hs hiv s h.hi h.hh
  · intro s m h; exact h.hh
  · intro s m h; rfl

theorem sumOf_eq (ok : Ok c F) (iv : List (BitVec w)) (hs : Nat) (hiv : iv.length = 16) (H : Bytes → Bytes)
    (hH : ∀ m, c.bytes ((c.compress c.final ((fullBlocks c.limit (Spec.BMW.pad c.limit m)).foldl F iv)).drop (16 - hs >>> c.shift)) = H m) (m : Bytes) (hl : (H m).length = hs) :
    sumOf c (newDigest c iv hs) hs m = H m := by
  have h0 : Rep c F iv hs (newDigest c iv hs) [] := reset_rep iv hs hiv _ (goCopy_16 iv _ List.length_replicate hiv) rfl
  have h1 := write_rep ok iv hs _ _ m h0
  unfold sumOf
  rw [pad_eq ok iv hs _ _ h1, List.nil_append, hH, goCopy_zero_all _ _ (by rw [zeros_length, hl])]

/-! The two configurations -/
theorem compress_length {w} (p : Spec.BMW.P w) (h m) : (Spec.BMW.compress p h m).length = 16 := by
  unfold Spec.BMW.compress; simp

attribute [local irreducible] compress256 compress512 Spec.BMW.compress

theorem ok256 : Ok cfg256 (fun h b => Spec.BMW.compress Spec.BMW.P32 h (Spec.BMW.words32 b)) := by
  have e : ∀ (s : List U32) (b : Bytes), s.length = 16 → b.length = cfg256.limit → processBlock cfg256 s b = Spec.BMW.compress Spec.BMW.P32 s (Spec.BMW.words32 b) := by
    intro s b hs hb
    show compress256 s (bytesToUint32s b) = _
    rw [compress256_eq s _ hs]
    unfold bytesToUint32s Spec.BMW.words32
    rw [hb]; rfl
  exact ⟨by decide, fun s b hs hb => by rw [e s b hs hb]; exact compress_length _ _ _, e, rfl⟩

theorem ok512 : Ok cfg512 (fun h b => Spec.BMW.compress Spec.BMW.P64 h (Spec.BMW.words64 b)) := by
  have e : ∀ (s : List U64) (b : Bytes), s.length = 16 → b.length = cfg512.limit → processBlock cfg512 s b = Spec.BMW.compress Spec.BMW.P64 s (Spec.BMW.words64 b) := by
    intro s b hs hb
    show compress512 s (bytesToUint64s b) = _
    rw [compress512_eq s _ hs]
    unfold bytesToUint64s Spec.BMW.words64
    rw [hb]; rfl
  exact ⟨by decide, fun s b hs hb => by rw [e s b hs hb]; exact compress_length _ _ _, e, rfl⟩

theorem const32_eq : final256 = Spec.BMW.const32 := by decide +kernel
theorem const64_eq : final512 = Spec.BMW.const64 := by decide +kernel
theorem iv224_eq : initVal224 = Spec.BMW.iv32 0 := by decide +kernel
theorem iv256_eq : initVal256 = Spec.BMW.iv32 64 := by decide +kernel
theorem iv384_eq : initVal384 = Spec.BMW.iv64 0 := by decide +kernel
theorem iv512_eq : initVal512 = Spec.BMW.iv64 128 := by decide +kernel

theorem out32 (iv : List U32) (hs : Nat) (m : Bytes) :
    cfg256.bytes ((cfg256.compress cfg256.final ((fullBlocks cfg256.limit (Spec.BMW.pad cfg256.limit m)).foldl (fun h b => Spec.BMW.compress Spec.BMW.P32 h (Spec.BMW.words32 b)) iv)).drop
      (16 - hs >>> cfg256.shift)) = Spec.BMW.bmw32 iv hs m := by
  show (List.drop _ (compress256 final256 _)).flatMap le32 = _
  rw [compress256_eq _ _ rfl, const32_eq]
  unfold Spec.BMW.bmw32
  dsimp only
  rw [show hs >>> cfg256.shift = hs / 4 from Nat.shiftRight_eq_div_pow hs 2]; rfl

theorem out64 (iv : List U64) (hs : Nat) (m : Bytes) :
    cfg512.bytes ((cfg512.compress cfg512.final ((fullBlocks cfg512.limit (Spec.BMW.pad cfg512.limit m)).foldl (fun h b => Spec.BMW.compress Spec.BMW.P64 h (Spec.BMW.words64 b)) iv)).drop
      (16 - hs >>> cfg512.shift)) = Spec.BMW.bmw64 iv hs m := by
  show (List.drop _ (compress512 final512 _)).flatMap le64 = _
  rw [compress512_eq _ _ rfl, const64_eq]
  unfold Spec.BMW.bmw64
  dsimp only
  rw [show hs >>> cfg512.shift = hs / 8 from Nat.shiftRight_eq_div_pow hs 3]; rfl

theorem flat32_length (l : List U32) : (l.flatMap le32).length = 4 * l.length := by
  induction l with
  | nil => rfl
  | cons a l ih => rw [List.flatMap_cons, List.length_append, ih, List.length_cons, show (le32 a).length = 4 from rfl]; omega
theorem flat64_length (l : List U64) : (l.flatMap le64).length = 8 * l.length := by
  induction l with
  | nil => rfl
  | cons a l ih => rw [List.flatMap_cons, List.length_append, ih, List.length_cons, show (le64 a).length = 8 from rfl]; omega

theorem bmw32_length (iv : List U32) (n : Nat) (m : Bytes) (h : n ≤ 64) : (Spec.BMW.bmw32 iv n m).length = 4 * (n / 4) := by
  unfold Spec.BMW.bmw32
  dsimp only
  rw [flat32_length, List.length_drop, compress_length]; omega
theorem bmw64_length (iv : List U64) (n : Nat) (m : Bytes) (h : n ≤ 128) : (Spec.BMW.bmw64 iv n m).length = 8 * (n / 8) := by
  unfold Spec.BMW.bmw64
  dsimp only
  rw [flat64_length, List.length_drop, compress_length]; omega
end Verif.BMW
