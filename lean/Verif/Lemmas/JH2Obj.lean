import Verif.Lemmas.JH2F
namespace Verif.JH2
open Verif.JH
open Spec.JH (F8)

/-- The four digest sizes in bytes. -/
def Sz (hs : Nat) : Prop := hs = 28 ∨ hs = 32 ∨ hs = 48 ∨ hs = 64

def ivW (hs : Nat) : List U64 := if hs = 28 then initVal224 else if hs = 32 then initVal256 else if hs = 48 then initVal384 else initVal512

theorem ivW_length (hs : Nat) (h : Sz hs) : (ivW hs).length = 16 := by rcases h with rfl | rfl | rfl | rfl <;> rfl

/-- H^(-1) as words. -/
def hm1 (hs : Nat) : List U64 := (BitVec.ofNat 64 (8 * hs) <<< 48) :: List.replicate 15 0

set_option maxRecDepth 100000 in
theorem iv28 : processBlock (hm1 28) (zeros 64) = initVal224 := by decide +kernel
set_option maxRecDepth 100000 in
theorem iv32 : processBlock (hm1 32) (zeros 64) = initVal256 := by decide +kernel
set_option maxRecDepth 100000 in
theorem iv48 : processBlock (hm1 48) (zeros 64) = initVal384 := by decide +kernel
set_option maxRecDepth 100000 in
theorem iv64 : processBlock (hm1 64) (zeros 64) = initVal512 := by decide +kernel

theorem tb_hm1 (hs : Nat) (h : Sz hs) : tb (hm1 hs) = [BitVec.ofNat 8 (8 * hs / 256), BitVec.ofNat 8 (8 * hs)] ++ zeros 126 := by
  rcases h with rfl | rfl | rfl | rfl <;> decide +kernel

theorem iv_eq (hs : Nat) (h : Sz hs) : tb (ivW hs) = Spec.JH.iv hs := by
  unfold Spec.JH.iv
  rw [← tb_hm1 hs h, ← (processBlock_eq (hm1 hs) (by simp [hm1]) (zeros 64) (zeros_length 64)).1]
  congr 1
  rcases h with rfl | rfl | rfl | rfl
  · exact iv28.symm
  · exact iv32.symm
  · exact iv48.symm
  · exact iv64.symm

def St (hs : Nat) (s : List U64) (m : Bytes) : Prop := s.length = 16 ∧ tb s = (fullBlocks 64 m).foldl F8 (Spec.JH.iv hs)

structure Rep (hs : Nat) (d : Digest) (m : Bytes) : Prop where
  hhs : d.hs = hs
  hiv : d.initVal = ivW hs
  hlen : d.len = BitVec.ofNat 64 m.length
  buf : LoopRep 64 64 (St hs) d.s d.x d.nx m

theorem reset_rep (hs : Nat) (h : Sz hs) (d : Digest) (h1 : d.hs = hs) (h2 : d.initVal = ivW hs) : Rep hs d.reset [] := by
  refine ⟨h1, h2, rfl, LoopRep.init _ _ _ _ ⟨?_, ?_⟩⟩
  · show d.initVal.length = 16; rw [h2]; exact ivW_length hs h
  · show tb d.initVal = _; rw [h2, fullBlocks_nil]; exact iv_eq hs h

theorem write_rep (hs : Nat) (d : Digest) (m p : Bytes) (h : Rep hs d m) : Rep hs (d.write p).1 (m ++ p) := by
  refine ⟨h.hhs, h.hiv, ?_, ?_⟩
  · show d.len + _ = _; rw [h.hlen, ← BitVec.ofNat_add, List.length_append]
  · refine loopWrite_rep 64 64 (by omega) (by omega) (St hs) _ _ ?_ ?_ (p.length + 1) d.s d.x d.nx m p h.buf (by omega)
    · intro s x m p hR hx hlen ht hf _
      obtain ⟨t1, t2⟩ := processBlock_eq s hR.1 x hx
      refine ⟨t2, ?_⟩
      rw [t1, hf, List.foldl_append, ← hR.2, ← ht, List.take_of_length_le (by omega)]; rfl
    · intro s m p hR _ hf _
      exact ⟨hR.1, by rw [hf]; exact hR.2⟩

/-- The bytes that checkSum writes. -/
theorem tail_eq (numz : Nat) (hz : numz + 17 ≤ 128) (a b : U64) :
    (goCopy (goCopy ((zeros 128).set 0 0x80) (numz + 1) (be64 a)) (numz + 9) (be64 b)).take (numz + 17) = 0x80 :: zeros numz ++ (be64 a ++ be64 b) := by
  have e0 : ((zeros 128).set 0 0x80).take (numz + 1) = 0x80 :: zeros numz := by
    rw [show (zeros 128).set 0 0x80 = 0x80 :: zeros 127 from rfl, List.take_succ_cons, take_zeros _ _ (by omega)]
  have l0 : ((zeros 128).set 0 (0x80 : Byte)).length = 128 := by rw [List.length_set, zeros_length]
  have l1 : (goCopy ((zeros 128).set 0 (0x80 : Byte)) (numz + 1) (be64 a)).length = 128 := by rw [goCopy_length _ _ _ (by omega), l0]
  have e1 := goCopy_take ((zeros 128).set 0 0x80) (numz + 1) (be64 a) (by rw [be64_length]; omega)
  rw [be64_length, e0] at e1
  have e2 := goCopy_take (goCopy ((zeros 128).set 0 0x80) (numz + 1) (be64 a)) (numz + 9) (be64 b) (by rw [be64_length]; omega)
  rw [be64_length, show numz + 9 = numz + 1 + 8 by omega, e1] at e2
  rw [show numz + 17 = numz + 1 + 8 + 8 by omega, show numz + 9 = numz + 1 + 8 by omega, e2, List.append_assoc]

theorem drop8 (s : List U64) (hl : s.length = 16) : (List.range 8).map (fun i => s.getD (i + 8) 0) = s.drop 8 := by
  apply List.ext_getElem
  · simp [hl]
  · intro i h1 h2
    have hi : i < 8 := by simpa using h1
    rw [List.getElem_map, List.getElem_range, List.getElem_drop, List.getD_eq_getElem?_getD, List.getElem?_eq_getElem (by omega)]
    simp only [Option.getD_some, Nat.add_comm]

theorem out_eq (s : List U64) (hl : s.length = 16) (b : Bytes) (hb : b.length = 128) (hs : Nat) (hh : hs ≤ 64) :
    (((List.range 8).foldl (fun b i => goCopy b (8 * i) (be64 (s.getD (i + 8) 0))) b).drop (64 - hs)).take hs = (tb s).drop (128 - hs) := by
  have key : ∀ n, n ≤ 8 → ((List.range n).foldl (fun b i => goCopy b (8 * i) (be64 (s.getD (i + 8) 0))) b).length = 128 ∧
      ((List.range n).foldl (fun b i => goCopy b (8 * i) (be64 (s.getD (i + 8) 0))) b).take (8 * n) = tb ((List.range n).map fun i => s.getD (i + 8) 0) := by
    intro n
    induction n with
    | zero => intro _; exact ⟨hb, rfl⟩
    | succ n ih =>
      intro hn
      obtain ⟨i1, i2⟩ := ih (by omega)
      rw [List.range_succ, List.foldl_append]
      generalize (List.range n).foldl _ b = c at i1 i2
      refine ⟨by show (goCopy c _ _).length = _; rw [goCopy_length _ _ _ (by omega), i1], ?_⟩
      have := goCopy_take c (8 * n) (be64 (s.getD (n + 8) 0)) (by rw [be64_length]; omega)
      rw [be64_length, i2] at this
      show (goCopy c (8 * n) (be64 (s.getD (n + 8) 0))).take (8 * (n + 1)) = _
      rw [show 8 * (n + 1) = 8 * n + 8 by omega, this, List.map_append]
      unfold tb
      rw [List.map_append, List.flatten_append]
      simp
  obtain ⟨k1, k2⟩ := key 8 (by omega)
  have e := drop8 s hl
  have e2 : tb (s.drop 8) = (tb s).drop 64 := by
    have : tb s = tb (s.take 8) ++ tb (s.drop 8) := by
      unfold tb; rw [← List.flatten_append, ← List.map_append, List.take_append_drop]
    rw [this, List.drop_left']
    rw [tb_length, List.length_take]; omega
  rw [e, e2] at k2
  generalize (List.range 8).foldl _ b = c at k1 k2
  have : (c.drop (64 - hs)).take hs = (c.take 64).drop (64 - hs) := by
    rw [List.drop_take]; congr 1; omega
  rw [this, k2, List.drop_drop]
  congr 1; omega

theorem len_hi (n : Nat) (hn : n < 2 ^ 64) : (BitVec.ofNat 64 n / 64) >>> 55 = BitVec.ofNat 64 (8 * n / 2 ^ 64) := by
  apply BitVec.eq_of_toNat_eq
  rw [BitVec.toNat_ushiftRight, BitVec.toNat_udiv, show (64 : U64) = BitVec.ofNat 64 64 from rfl, BitVec.toNat_ofNat, BitVec.toNat_ofNat, BitVec.toNat_ofNat, Nat.shiftRight_eq_div_pow]
  simp only [Nat.reducePow, Nat.reduceMod] at *
  omega

theorem len_lo (n : Nat) (hn : n < 2 ^ 64) : ((BitVec.ofNat 64 n / 64) <<< 9) + (BitVec.ofNat 64 (n % 64) <<< 3) = BitVec.ofNat 64 (8 * n) := by
  apply BitVec.eq_of_toNat_eq
  rw [BitVec.toNat_add, BitVec.toNat_shiftLeft, BitVec.toNat_shiftLeft, BitVec.toNat_udiv, show (64 : U64) = BitVec.ofNat 64 64 from rfl, BitVec.toNat_ofNat, BitVec.toNat_ofNat,
    BitVec.toNat_ofNat, BitVec.toNat_ofNat, Nat.shiftLeft_eq, Nat.shiftLeft_eq]
  simp only [Nat.reducePow, Nat.reduceMod] at *
  omega

theorem checkSum_eq (hs : Nat) (hz : Sz hs) (d : Digest) (m : Bytes) (h : Rep hs d m) (hm : m.length < 2 ^ 64) : d.checkSum = Spec.JH.hash hs m := by
  have hmod : d.nx = m.length % 64 := by rw [h.buf.hnx, restBlock_length]
  have hnum : (if d.nx = 0 then 47 else 111 - d.nx) = 47 + (64 - m.length % 64) % 64 := by
    rw [hmod]; split <;> omega
  unfold Digest.checkSum
  dsimp only
  rw [hnum, h.hlen, len_hi _ hm, hmod, len_lo _ hm]
  generalize hn : 47 + (64 - m.length % 64) % 64 = numz
  have hb : numz + 17 ≤ 128 := by omega
  rw [tail_eq numz hb]
  have hw := write_rep hs d m (0x80 :: zeros numz ++ (be64 (BitVec.ofNat 64 (8 * m.length / 2 ^ 64)) ++ be64 (BitVec.ofNat 64 (8 * m.length)))) h
  generalize (d.write (0x80 :: zeros numz ++ (be64 (BitVec.ofNat 64 (8 * m.length / 2 ^ 64)) ++ be64 (BitVec.ofNat 64 (8 * m.length))))).1 = d' at hw
  have hh : d'.hs = hs := hw.hhs
  rw [hh, out_eq d'.s hw.buf.st.1 _ ?_ hs (by rcases hz with rfl | rfl | rfl | rfl <;> omega), hw.buf.st.2]
  · unfold Spec.JH.hash Spec.JH.pad
    rw [hn]
  · have l0 : ((zeros 128).set 0 (0x80 : Byte)).length = 128 := by rw [List.length_set, zeros_length]
    have l1 : (goCopy ((zeros 128).set 0 (0x80 : Byte)) (numz + 1) (be64 (BitVec.ofNat 64 (8 * m.length / 2 ^ 64)))).length = 128 := by rw [goCopy_length _ _ _ (by omega), l0]
    rw [goCopy_length _ _ _ (by omega), l1]

end Verif.JH2
