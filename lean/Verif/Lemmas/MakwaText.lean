import Verif.Model.Makwa
/-
The text format of package makwa.
-/
namespace Verif.Makwa

theorem ofNat8_or (a b s : Nat) (h : 8 ≤ s) : BitVec.ofNat 8 (a ||| (b <<< s)) = BitVec.ofNat 8 a := by
  apply BitVec.eq_of_getLsbD_eq
  intro i hi
  have : ¬ s ≤ i := by omega
  simp [BitVec.getLsbD_ofNat, Nat.testBit_or, Nat.testBit_shiftLeft, this]

theorem digit_alphabet : ∀ i, i < 64 → b64Digit (at8 alphabet i) = some i := by decide +kernel

/-- What b64Decode does after the loop. -/
def b64End : Option (Nat × Nat × Bytes) → Option Bytes
  | none => none
  | some (acc, k, out) =>
    if k = 1 then none
    else if k = 2 then some (out ++ [BitVec.ofNat 8 ((acc >>> 4) ||| (acc <<< 28))])
    else if k = 3 then some (out ++ [BitVec.ofNat 8 ((acc >>> 10) ||| (acc <<< 22)), BitVec.ofNat 8 ((acc >>> 2) ||| (acc <<< 30))])
    else some out

theorem b64Decode_end (b : Bytes) : b64Decode b = b64End (b64Loop b 0 0 []) := rfl

theorem loop_step (i : Nat) (hi : i < 64) (rest : Bytes) (acc k : Nat) (out : Bytes) (hk : k + 1 ≠ 4) :
    b64Loop (at8 alphabet i :: rest) acc k out = b64Loop rest (acc * 64 + i) (k + 1) out := by
  conv_lhs => unfold b64Loop
  rw [digit_alphabet i hi]
  dsimp only
  rw [if_neg hk, Nat.shiftLeft_eq]

theorem loop_step4 (i : Nat) (hi : i < 64) (rest : Bytes) (acc : Nat) (out : Bytes) :
    b64Loop (at8 alphabet i :: rest) acc 3 out = b64Loop rest 0 0
      (out ++ [BitVec.ofNat 8 ((acc * 64 + i) / 65536), BitVec.ofNat 8 ((acc * 64 + i) / 256), BitVec.ofNat 8 (acc * 64 + i)]) := by
  conv_lhs => unfold b64Loop
  rw [digit_alphabet i hi]
  dsimp only
  rw [if_pos rfl, ofNat8_or _ _ 16 (by omega), ofNat8_or _ _ 24 (by omega), Nat.shiftRight_eq_div_pow, Nat.shiftRight_eq_div_pow, Nat.shiftLeft_eq]

theorem and3F (x : Nat) : x &&& 0x3F = x % 64 := Nat.and_two_pow_sub_one_eq_mod x 6

theorem byte_of (b : Byte) (n : Nat) (h : n % 256 = b.toNat) : BitVec.ofNat 8 n = b := by
  apply BitVec.eq_of_toNat_eq; rw [BitVec.toNat_ofNat]; exact h

theorem b64_loop (b : Bytes) : ∀ out, b64End (b64Loop (b64Encode b) 0 0 out) = some (out ++ b) := by
  induction b using b64Encode.induct with
  | case1 b0 b1 b2 rest ih =>
    intro out
    unfold b64Encode
    dsimp only
    have h0 := b0.isLt
    have h1 := b1.isLt
    have h2 := b2.isLt
    simp only [List.cons_append, List.nil_append, Nat.shiftLeft_eq, Nat.shiftRight_eq_div_pow, and3F]
    rw [loop_step _ (by omega) _ _ _ _ (by omega), loop_step _ (by omega) _ _ _ _ (by omega), loop_step _ (by omega) _ _ _ _ (by omega),
      loop_step4 _ (by omega), ih, byte_of b0 _ (by omega), byte_of b1 _ (by omega), byte_of b2 _ (by omega), List.append_assoc]
    rfl
  | case2 b0 b1 =>
    intro out
    unfold b64Encode
    dsimp only
    have h0 := b0.isLt
    have h1 := b1.isLt
    simp only [Nat.shiftLeft_eq, Nat.shiftRight_eq_div_pow, and3F]
    rw [loop_step _ (by omega) _ _ _ _ (by omega), loop_step _ (by omega) _ _ _ _ (by omega), loop_step _ (by omega) _ _ _ _ (by omega)]
    unfold b64Loop b64End
    dsimp only
    rw [if_neg (by omega), if_neg (by omega), if_pos rfl, ofNat8_or _ _ 22 (by omega), ofNat8_or _ _ 30 (by omega), Nat.shiftRight_eq_div_pow, Nat.shiftRight_eq_div_pow,
      byte_of b0 _ (by omega), byte_of b1 _ (by omega)]
  | case3 b0 =>
    intro out
    unfold b64Encode
    dsimp only
    have h0 := b0.isLt
    simp only [Nat.shiftLeft_eq, Nat.shiftRight_eq_div_pow, and3F]
    rw [loop_step _ (by omega) _ _ _ _ (by omega), loop_step _ (by omega) _ _ _ _ (by omega)]
    unfold b64Loop b64End
    dsimp only
    rw [if_neg (by omega), if_pos rfl, ofNat8_or _ _ 28 (by omega), Nat.shiftRight_eq_div_pow, byte_of b0 _ (by omega)]
  | case4 => intro out; rw [List.append_nil]; rfl

theorem b64_roundtrip (b : Bytes) : b64Decode (b64Encode b) = some b := by rw [b64Decode_end, b64_loop]; rfl

theorem alphabet_ne (i : Nat) : at8 alphabet i ≠ ch '_' := by
  by_cases h : i < 64
  · exact (show ∀ i, i < 64 → at8 alphabet i ≠ ch '_' by decide +kernel) i h
  · have : at8 alphabet i = 0 := by
      unfold at8; rw [List.getD_eq_getElem?_getD, List.getElem?_eq_none (by rw [show alphabet.length = 64 from by decide +kernel]; omega)]; rfl
    rw [this]; decide

theorem b64_no_sep (b : Bytes) : ch '_' ∉ b64Encode b := by
  induction b using b64Encode.induct with
  | case1 b0 b1 b2 rest ih =>
    unfold b64Encode
    simp only [List.cons_append, List.nil_append, List.mem_cons, not_or]
    exact ⟨(alphabet_ne _).symm, (alphabet_ne _).symm, (alphabet_ne _).symm, (alphabet_ne _).symm, ih⟩
  | case2 b0 b1 => unfold b64Encode; simp only [List.mem_cons, not_or]; exact ⟨(alphabet_ne _).symm, (alphabet_ne _).symm, (alphabet_ne _).symm, by simp⟩
  | case3 b0 => unfold b64Encode; simp only [List.mem_cons, not_or]; exact ⟨(alphabet_ne _).symm, (alphabet_ne _).symm, by simp⟩
  | case4 => unfold b64Encode; simp

theorem split_last (sep : Byte) (a : Bytes) (h : sep ∉ a) : split sep a = [a] := by
  induction a with
  | nil => rfl
  | cons x a ih =>
    rw [List.mem_cons, not_or] at h
    unfold split
    rw [if_neg (fun e => h.1 e.symm), ih h.2]
theorem split_cons (sep : Byte) (a rest : Bytes) (h : sep ∉ a) : split sep (a ++ sep :: rest) = a :: split sep rest := by
  induction a with
  | nil => rw [List.nil_append]; conv_lhs => unfold split
           rw [if_pos rfl]
  | cons x a ih =>
    rw [List.mem_cons, not_or] at h
    rw [List.cons_append]
    conv_lhs => unfold split
    rw [if_neg (fun e => h.1 e.symm), ih h.2]

theorem wfLoop_spec (fuel : Nat) : ∀ (w : U32) (j : Nat), w.toNat < 2 ^ fuel → (wfLoop fuel w j).1.toNat * 2 ^ (wfLoop fuel w j).2 = w.toNat * 2 ^ j ∧
    (wfLoop fuel w j).2 ≤ j + fuel := by
  induction fuel with
  | zero => intro w j h; exact ⟨rfl, Nat.le_refl _⟩
  | succ fuel ih =>
    intro w j h
    unfold wfLoop
    split
    · rename_i hc
      have hw := w.isLt
      have h1 : w.toNat % 2 = 0 := by
        have := congrArg BitVec.toNat hc.2
        simpa [BitVec.toNat_and, Nat.and_one_is_mod] using this
      have hv : ((w >>> 1) ||| (w <<< 31)).toNat = w.toNat / 2 := by
        have : w <<< 31 = 0#32 := by
          apply BitVec.eq_of_toNat_eq
          simp only [BitVec.toNat_shiftLeft, BitVec.toNat_ofNat, Nat.shiftLeft_eq]
          omega
        rw [this]; simp [Nat.shiftRight_eq_div_pow]
      have := ih ((w >>> 1) ||| (w <<< 31)) (j + 1) (by rw [hv]; rw [Nat.pow_succ] at h; omega)
      rw [hv] at this
      refine ⟨?_, by omega⟩
      rw [this.1, Nat.pow_succ, ← Nat.mul_assoc, Nat.mul_comm (_ * _) 2, ← Nat.mul_assoc, show 2 * (w.toNat / 2) = w.toNat by omega]
    · exact ⟨rfl, by omega⟩

theorem wfMant_spec (w m : U32) (j : Nat) (h : wfMant w = some (m, j)) : (m = 2 ∨ m = 3) ∧ j < 32 ∧ w.toNat = m.toNat * 2 ^ j := by
  unfold wfMant at h
  dsimp only at h
  split at h
  · rename_i hc
    have e : wfLoop 32 w 0 = (m, j) := by simpa using h
    obtain ⟨h1, h2⟩ := wfLoop_spec 32 w 0 w.isLt
    rw [e] at h1 h2 hc
    simp only [Nat.pow_zero, Nat.mul_one, Nat.zero_add] at h1 h2
    refine ⟨hc, ?_, h1.symm⟩
    rcases Nat.lt_or_eq_of_le h2 with h3 | h3
    · exact h3
    · exfalso
      have := w.isLt
      have hm : 2 ≤ m.toNat := by rcases hc with rfl | rfl <;> decide
      rw [← h1, h3] at this
      have : 2 * 2 ^ 32 ≤ m.toNat * 2 ^ 32 := Nat.mul_le_mul_right _ hm
      omega
  · simp at h

theorem wf_parse (m : U32) (j : Nat) (hm : m = 2 ∨ m = 3) (hj : j < 32) (c : Byte) :
    atoi (((c :: wfText m j).drop 1).take 1) = some (m.toNat : Int) ∧ atoi ((c :: wfText m j).drop 2) = some (j : Int) ∧ ch '_' ∉ wfText m j := by
  rw [List.drop_succ_cons, List.drop_zero, List.drop_succ_cons]
  have a2 : ∀ j, j < 32 → atoi ((wfText 2 j).take 1) = some 2 := by decide +kernel
  have a3 : ∀ j, j < 32 → atoi ((wfText 3 j).take 1) = some 3 := by decide +kernel
  have b2 : ∀ j, j < 32 → atoi ((wfText 2 j).drop 1) = some (Int.ofNat j) := by decide +kernel
  have b3 : ∀ j, j < 32 → atoi ((wfText 3 j).drop 1) = some (Int.ofNat j) := by decide +kernel
  have c2 : ∀ j, j < 32 → ch '_' ∉ wfText 2 j := by decide +kernel
  have c3 : ∀ j, j < 32 → ch '_' ∉ wfText 3 j := by decide +kernel
  rcases hm with rfl | rfl
  · exact ⟨a2 j hj, b2 j hj, c2 j hj⟩
  · exact ⟨a3 j hj, b3 j hj, c3 j hj⟩

theorem toNat_pow (x : U64) (n : Nat) : (x ^ n).toNat = x.toNat ^ n % 2 ^ 64 := by
  induction n with
  | zero => rfl
  | succ n ih => rw [BitVec.pow_succ, BitVec.toNat_mul, ih, _root_.pow_succ x.toNat n, Nat.mod_mul_mod]

theorem pow_small (m : U32) (j : Nat) (hm : m = 2 ∨ m = 3) (hj : m.toNat * 2 ^ j < 2 ^ 32) :
    ((BitVec.ofInt 64 (m.toNat : Int)) ^ (((j : Nat) : Int) + 1).toNat : U64).toInt = ((m.toNat ^ (j + 1) : Nat) : Int) := by
  have hj31 : j < 31 := by
    rcases hm with rfl | rfl
    · by_contra hc
      have : 2 ^ 31 ≤ 2 ^ j := Nat.pow_le_pow_right (by omega) (by omega)
      have e : (2 : U32).toNat = 2 := rfl
      rw [e] at hj; omega
    · by_contra hc
      have : 2 ^ 31 ≤ 2 ^ j := Nat.pow_le_pow_right (by omega) (by omega)
      have e : (3 : U32).toNat = 3 := rfl
      rw [e] at hj; omega
  have h : ∀ j, j < 31 → 2 ^ (j + 1) < 2 ^ 63 ∧ 3 ^ (j + 1) < 2 ^ 63 := by decide +kernel
  have hb : m.toNat ^ (j + 1) < 2 ^ 63 := by
    rcases hm with rfl | rfl
    · exact (h j hj31).1
    · exact (h j hj31).2
  have e1 : ((BitVec.ofInt 64 (m.toNat : Int)) ^ (((j : Nat) : Int) + 1).toNat : U64).toNat = m.toNat ^ (j + 1) := by
    rw [toNat_pow, show (((j : Nat) : Int) + 1).toNat = j + 1 by omega, BitVec.ofInt_natCast, BitVec.toNat_ofNat,
      Nat.mod_eq_of_lt (a := m.toNat) (by have := m.isLt; omega), Nat.mod_eq_of_lt (by omega)]
  rw [BitVec.toInt_eq_toNat_of_lt (by rw [e1]; omega), e1]

/-- UnmarshalText after MarshalText, whatever the receiver was: all fields but the work factor come back, and the work factor 2·2^j or 3·2^j comes back as
2^(j+1) or 3^(j+1). -/
theorem unmarshal_marshal (d d0 : Digest) (m : U32) (j : Nat) (hw : wfMant (u32 d.workFactor) = some (m, j))
    (hp : d.postHashLen = 0 ∨ (0 < d.postHashLen ∧ d.postHashLen = d.hash.length)) :
    ∃ text, d.marshalText = .ok text ∧ d0.unmarshalText text = .ok { d with workFactor := ((m.toNat ^ (j + 1) : Nat) : Int) } := by
  obtain ⟨hm, hj, hv⟩ := wfMant_spec _ _ _ hw
  have hlt : m.toNat * 2 ^ j < 2 ^ 32 := by rw [← hv]; exact (u32 d.workFactor).isLt
  unfold Digest.marshalText
  rw [hw]
  refine ⟨_, rfl, ?_⟩
  set c : Byte := if d.preHash then (if d.postHashLen > 0 then ch 'b' else ch 'r') else (if d.postHashLen > 0 then ch 's' else ch 'n') with hc
  have hcn : ch '_' ≠ c := by rw [hc]; split <;> split <;> decide
  obtain ⟨p1, p2, p3⟩ := wf_parse m j hm hj c
  have hsp : split (ch '_') (b64Encode d.modulusID ++ [ch '_'] ++ [c] ++ wfText m j ++ [ch '_'] ++ b64Encode d.salt ++ [ch '_'] ++ b64Encode d.hash) =
      [b64Encode d.modulusID, c :: wfText m j, b64Encode d.salt, b64Encode d.hash] := by
    rw [show b64Encode d.modulusID ++ [ch '_'] ++ [c] ++ wfText m j ++ [ch '_'] ++ b64Encode d.salt ++ [ch '_'] ++ b64Encode d.hash =
      b64Encode d.modulusID ++ ch '_' :: ((c :: wfText m j) ++ ch '_' :: (b64Encode d.salt ++ ch '_' :: b64Encode d.hash)) by simp]
    rw [split_cons _ _ _ (b64_no_sep _), split_cons _ _ _ (by rw [List.mem_cons, not_or]; exact ⟨hcn, p3⟩), split_cons _ _ _ (b64_no_sep _), split_last _ _ (b64_no_sep _)]
  unfold Digest.unmarshalText
  rw [hsp]
  simp only [List.getElem?_cons_zero, List.getElem?_cons_succ, b64_roundtrip]
  rw [if_neg (by simp [wfText]), p1, p2]
  dsimp only
  rw [pow_small m j hm hlt, show at8 (c :: wfText m j) 0 = c from rfl]
  congr 1
  obtain ⟨a1, a2, a3, a4, a5, a6⟩ := d
  dsimp only at hp hc ⊢
  rcases hp with h0 | ⟨h0, h1⟩
  · subst h0
    cases a5
    · rw [hc]; rfl
    · rw [hc]; rfl
  · have hg : a6 > 0 := h0
    rw [if_pos hg, if_pos hg] at hc
    cases a5
    · rw [hc, h1]; rfl
    · rw [hc, h1]; rfl

end Verif.Makwa
