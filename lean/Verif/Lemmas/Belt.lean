import Mathlib.Tactic.IntervalCases
import Verif.Model.Belt
import Verif.Spec.Belt
import Verif.Words
import Verif.Words32
/-
belt: cipher, σ functions, digest object.
-/
namespace Verif.Belt
open Spec.Belt (len128)

theorem put4 (a b c d : Byte) : (PUT_BYTE a 24 ||| PUT_BYTE b 16 ||| PUT_BYTE c 8 ||| PUT_BYTE d 0) = (a ++ b ++ c ++ d : BitVec 32) := by
  unfold PUT_BYTE
  apply BitVec.eq_of_getLsbD_eq
  intro i hi
  simp only [BitVec.getLsbD_or, BitVec.getLsbD_append, BitVec.getLsbD_shiftLeft, BitVec.getLsbD_setWidth]
  interval_cases i <;> simp [-BitVec.getLsbD_eq_getElem]

theorem getByte (x : U32) (i : Nat) : GET_BYTE x i = x.extractLsb' i 8 := by
  unfold GET_BYTE
  apply BitVec.eq_of_getLsbD_eq
  intro j hj
  interval_cases j <;> simp [BitVec.getLsbD_extractLsb', -BitVec.getLsbD_eq_getElem]

theorem S_eq : S = Spec.Belt.H := rfl

theorem G_eq (x : U32) (r : Nat) : G x r = Spec.Belt.G r x := by
  unfold G SB Spec.Belt.G
  rw [put4, getByte, getByte, getByte, getByte, S_eq]

theorem encRound_eq (ks : Bytes) (i : Nat) (hi : i < 8) (st : U32 × U32 × U32 × U32) : encRound ks st i = Spec.Belt.round ks (i + 1) st := by
  obtain ⟨a, b, c, d⟩ := st
  have hk : ∀ j, j < 7 → (KIdx.getD i []).getD j 0 = (7 * (i + 1) - (6 - j) - 1) % 8 := by
    intro j hj
    interval_cases i <;> interval_cases j <;> rfl
  have h0 := hk 0 (by omega)
  have h1 := hk 1 (by omega)
  have h2 := hk 2 (by omega)
  have h3 := hk 3 (by omega)
  have h4 := hk 4 (by omega)
  have h5 := hk 5 (by omega)
  have h6 := hk 6 (by omega)
  have e : BitVec.ofNat 32 i + 1 = BitVec.ofNat 32 (i + 1) := by rw [BitVec.ofNat_add]; rfl
  unfold encRound Spec.Belt.round
  dsimp only
  rw [h0, h1, h2, h3, h4, h5, h6, e]
  simp only [G_eq, Nat.sub_zero, Nat.reduceSub]

theorem loop8 {σ} (f : σ → Nat → σ) (s : σ) : forLoop 0 8 f s = f (f (f (f (f (f (f (f s 0) 1) 2) 3) 4) 5) 6) 7 := rfl
theorem fold8 {σ} (f : σ → Nat → σ) (s : σ) : [1, 2, 3, 4, 5, 6, 7, 8].foldl f s = f (f (f (f (f (f (f (f s 1) 2) 3) 4) 5) 6) 7) 8 := rfl

theorem enc_loop (ks : Bytes) (st : U32 × U32 × U32 × U32) : forLoop 0 8 (encRound ks) st = [1, 2, 3, 4, 5, 6, 7, 8].foldl (fun x i => Spec.Belt.round ks i x) st := by
  rw [loop8, fold8]
  rw [encRound_eq ks 7 (by omega), encRound_eq ks 6 (by omega), encRound_eq ks 5 (by omega), encRound_eq ks 4 (by omega), encRound_eq ks 3 (by omega),
    encRound_eq ks 2 (by omega), encRound_eq ks 1 (by omega), encRound_eq ks 0 (by omega)]

theorem enc_eq (inp ks : Bytes) : belt_encrypt inp ks = Spec.Belt.F ks inp := by
  unfold belt_encrypt Spec.Belt.F
  rw [enc_loop]

theorem F_length (ks x : Bytes) : (Spec.Belt.F ks x).length = 16 := by
  unfold Spec.Belt.F
  simp

theorem xor_comm' (a b : Bytes) : List.zipWith (· ^^^ ·) a b = List.zipWith (· ^^^ ·) b a := by
  rw [List.zipWith_comm]
  congr 1
  funext x y
  exact BitVec.xor_comm _ _

theorem sigma1_length (X h : Bytes) (hh : h.length = 32) : (Spec.Belt.sigma1 X h).length = 16 := by
  unfold Spec.Belt.sigma1 Spec.Belt.xor
  simp [F_length, hh]

theorem sigma2_eq (X h : Bytes) (hh : h.length = 32) : sigma2 X h = Spec.Belt.sigma2 X h := by
  unfold sigma2 Spec.Belt.sigma2
  have e : sigma1Xor X h (zeros 16) false = Spec.Belt.sigma1 X h := by
    unfold sigma1Xor Spec.Belt.sigma1
    simp only [Bool.false_eq_true, if_false, enc_eq]; rfl
  have hl := sigma1_length X h hh
  have et : goCopy (goCopy (zeros 32) 0 (Spec.Belt.sigma1 X h)) 16 (h.drop 16) = Spec.Belt.sigma1 X h ++ h.drop 16 := by
    have hd : (h.drop 16).length = 16 := by rw [List.length_drop, hh]
    rw [goCopy_end _ _ _ (by rw [goCopy_length _ _ _ (by simp [hl]), zeros_length, hd])]
    congr 1
    have := goCopy_take (zeros 32) 0 (Spec.Belt.sigma1 X h) (by simp [hl])
    rw [hl] at this
    simpa using this
  dsimp only
  rw [e, et]
  simp only [enc_eq]
  have ex : ((Spec.Belt.sigma1 X h ++ h.drop 16).take 16).map (· ^^^ 0xff) = Spec.Belt.xor (Spec.Belt.sigma1 X h) (List.replicate 16 0xff) := by
    rw [List.take_left' hl]
    unfold Spec.Belt.xor
    apply List.ext_getElem
    · simp [hl]
    · intro i h1 h2
      rw [List.getElem_map, List.getElem_zipWith, List.getElem_replicate]
  rw [ex]; rfl

theorem sigma2_length (X h : Bytes) (hx : X.length = 32) : (Spec.Belt.sigma2 X h).length = 32 := by
  unfold Spec.Belt.sigma2 Spec.Belt.xor
  simp [F_length, hx]

theorem step_length (sh : Bytes × Bytes) (X : Bytes) (h1 : sh.1.length = 16) (h2 : sh.2.length = 32) : (Spec.Belt.step sh X).1.length = 16 := by
  unfold Spec.Belt.step Spec.Belt.xor
  rw [List.length_zipWith, h1, sigma1_length _ _ h2]; rfl

theorem process_eq (sh : Bytes × Bytes) (X : Bytes) (hs : sh.1.length = 32) (hh : sh.2.length = 32) :
    process sh X = (sh.1.take 16 ++ (Spec.Belt.step (sh.1.drop 16, sh.2) X).1, (Spec.Belt.step (sh.1.drop 16, sh.2) X).2) := by
  have e : sigma1Xor X sh.2 (sh.1.drop 16) true = Spec.Belt.xor (sh.1.drop 16) (Spec.Belt.sigma1 X sh.2) := by
    unfold sigma1Xor Spec.Belt.sigma1 Spec.Belt.xor xorB
    simp only [if_true, enc_eq]
    rw [xor_comm' (Spec.Belt.F _ _)]
  unfold process hashProcess Spec.Belt.step
  dsimp only
  rw [e, sigma2_eq _ _ hh]
  rw [goCopy_end _ _ _ (by unfold Spec.Belt.xor; rw [List.length_zipWith, sigma1_length _ _ hh, List.length_drop, hs]; rfl)]

theorem len128_length (n : Nat) : (len128 n).length = 16 := by simp [len128]

theorem updateCtr_eq (s r : Bytes) (n k : Nat) (hk : k ≤ 32) (hs : s = len128 n ++ r) : updateCtr s k = len128 (n + 8 * k) ++ r := by
  subst hs
  have e0 : getLE64 (len128 n ++ r) 0 = BitVec.ofNat 64 n := by
    unfold len128; rw [List.append_assoc, getLE64_le64]
  have e1 : getLE64 (len128 n ++ r) 8 = BitVec.ofNat 64 (n / 2 ^ 64) := by
    have : getLE64 (le64 (BitVec.ofNat 64 n) ++ (le64 (BitVec.ofNat 64 (n / 2 ^ 64)) ++ r)) 8 = getLE64 (le64 (BitVec.ofNat 64 (n / 2 ^ 64)) ++ r) 0 := rfl
    unfold len128; rw [List.append_assoc, this, getLE64_le64]
  unfold updateCtr
  dsimp only
  rw [e0, e1]
  have eb : (BitVec.ofNat 64 k <<< 3 : U64) = BitVec.ofNat 64 (8 * k) := by
    apply BitVec.eq_of_toNat_eq
    rw [BitVec.toNat_shiftLeft, BitVec.toNat_ofNat, BitVec.toNat_ofNat, Nat.shiftLeft_eq]
    simp only [Nat.reducePow]; omega
  have ec : (BitVec.ofNat 64 n + BitVec.ofNat 64 (8 * k) : U64) = BitVec.ofNat 64 (n + 8 * k) := by rw [BitVec.ofNat_add]
  have ehi : (if (BitVec.ofNat 64 (n + 8 * k) : U64) < BitVec.ofNat 64 (8 * k) then BitVec.ofNat 64 (n / 2 ^ 64) + 1 else BitVec.ofNat 64 (n / 2 ^ 64)) = (BitVec.ofNat 64 ((n + 8 * k) / 2 ^ 64) : U64) := by
    by_cases h : (BitVec.ofNat 64 (n + 8 * k) : U64) < BitVec.ofNat 64 (8 * k)
    · rw [if_pos h]
      rw [BitVec.lt_def, BitVec.toNat_ofNat, BitVec.toNat_ofNat] at h
      have : (n + 8 * k) / 2 ^ 64 = n / 2 ^ 64 + 1 := by
        simp only [Nat.reducePow] at *; omega
      rw [this, BitVec.ofNat_add]; rfl
    · rw [if_neg h]
      rw [BitVec.lt_def, BitVec.toNat_ofNat, BitVec.toNat_ofNat] at h
      have : (n + 8 * k) / 2 ^ 64 = n / 2 ^ 64 := by
        simp only [Nat.reducePow] at *; omega
      rw [this]
  rw [eb, ec, ehi]
  unfold len128
  generalize BitVec.ofNat 64 (n + 8 * k) = c
  generalize BitVec.ofNat 64 ((n + 8 * k) / 2 ^ 64) = c'
  rw [List.append_assoc, goCopy_head _ _ _ (by simp)]
  rw [show (8 : Nat) = (le64 c).length from rfl, goCopy_mid _ _ _ _ (by simp), List.append_assoc]

def St (sh : Bytes × Bytes) (m : Bytes) : Prop :=
  sh.1 = len128 (8 * (32 * (m.length / 32))) ++ ((fullBlocks 32 m).foldl Spec.Belt.step (zeros 16, Spec.Belt.H.take 32)).1 ∧
  sh.2 = ((fullBlocks 32 m).foldl Spec.Belt.step (zeros 16, Spec.Belt.H.take 32)).2 ∧
  sh.1.length = 32 ∧ sh.2.length = 32

structure Rep (d : Digest) (m : Bytes) : Prop where
  buf : LoopRep 32 32 St (d.s, d.h) d.x d.nx m

theorem reset_rep (d : Digest) : Rep d.reset [] := by
  constructor
  have hiv : uint64sToBytes iv = Spec.Belt.H.take 32 := by decide +kernel
  refine LoopRep.init _ _ _ _ ?_
  show St (zeros 32, uint64sToBytes iv) []
  rw [hiv]
  unfold St
  rw [fullBlocks_nil]
  exact ⟨by decide, rfl, by decide, by decide⟩

/-- One block with the counter. -/
theorem block_eq (sh : Bytes × Bytes) (m X : Bytes) (h : St sh m) (k : Nat) (hk : k ≤ 32) (hX : X.length = 32) :
    process (updateCtr sh.1 k, sh.2) X =
      (len128 (8 * (32 * (m.length / 32)) + 8 * k) ++ ((fullBlocks 32 m ++ [X]).foldl Spec.Belt.step (zeros 16, Spec.Belt.H.take 32)).1,
        ((fullBlocks 32 m ++ [X]).foldl Spec.Belt.step (zeros 16, Spec.Belt.H.take 32)).2) ∧
    (process (updateCtr sh.1 k, sh.2) X).1.length = 32 ∧ (process (updateCtr sh.1 k, sh.2) X).2.length = 32 := by
  obtain ⟨h1, h2, h3, h4⟩ := h
  have hl : ((fullBlocks 32 m).foldl Spec.Belt.step (zeros 16, Spec.Belt.H.take 32)).1.length = 16 := by
    have := congrArg List.length h1
    rw [List.length_append, len128_length, h3] at this
    omega
  rw [updateCtr_eq sh.1 _ _ k hk h1]
  rw [process_eq (len128 (8 * (32 * (m.length / 32)) + 8 * k) ++ ((fullBlocks 32 m).foldl Spec.Belt.step (zeros 16, Spec.Belt.H.take 32)).1, sh.2) X (by simp [len128_length, hl]) h4]
  dsimp only
  rw [List.take_left' (len128_length _), List.drop_left' (len128_length _), h2, List.foldl_append]
  refine ⟨rfl, ?_, ?_⟩
  · rw [List.length_append, len128_length, step_length _ _ hl (by rw [← h2]; exact h4)]
  · exact sigma2_length _ _ hX

theorem write_rep (d : Digest) (m p : Bytes) (h : Rep d m) : Rep (d.write p).1 (m ++ p) := by
  constructor
  refine loopWrite_rep 32 32 (by omega) (by omega) St _ _ ?_ ?_ (p.length + 1) (d.s, d.h) d.x d.nx m p h.buf (by omega)
  · intro sh x m p hs hx hl ht hf _
    rw [List.take_of_length_le (by omega)] at ht
    obtain ⟨e1, e2, e3⟩ := block_eq sh m x hs 32 (by omega) hx
    show St (process (updateCtr sh.1 32, sh.2) x) _
    have hlen : 8 * (32 * ((m ++ p).length / 32)) = 8 * (32 * (m.length / 32)) + 8 * 32 := by
      rw [restBlock_length] at hl
      rw [List.length_append]; omega
    refine ⟨?_, ?_, e2, e3⟩
    · rw [hlen, hf, ← ht, e1]
    · rw [hf, ← ht, e1]
  · intro sh m p hs hl hf _
    rw [restBlock_length] at hl
    show St sh _
    unfold St
    rw [hf, show (m ++ p).length / 32 = m.length / 32 by rw [List.length_append]; omega]
    exact hs

theorem checkSum_eq (d : Digest) (m : Bytes) (h : Rep d m) : d.checkSum = Spec.Belt.hash m := by
  have hnl := h.buf.nx_lt (by omega)
  have hnx : d.nx = (restBlock 32 m).length := h.buf.hnx
  have hmod : d.nx = m.length % 32 := by rw [hnx, restBlock_length]
  have hxl := h.buf.xl
  unfold Digest.checkSum Spec.Belt.hash Spec.Belt.pad
  dsimp only
  by_cases h0 : d.nx = 0
  · rw [if_neg (by simpa using h0)]
    dsimp only
    obtain ⟨h1, h2, h3, h4⟩ := h.buf.st
    dsimp only at h1 h2 h3 h4
    rw [← hmod, h0]
    have : (32 - 0) % 32 = 0 := rfl
    rw [this, show zeros 0 = [] from rfl, List.append_nil, sigma2_eq _ _ h4, h1, h2, show 8 * (32 * (m.length / 32)) = 8 * m.length by omega]
  · rw [if_pos h0]
    have hx : goCopy d.x d.nx (zeros 32) = restBlock 32 m ++ zeros (32 - d.nx) := by
      unfold goCopy
      rw [h.buf.pend, hxl, List.drop_eq_nil_of_le (by rw [zeros_length]; omega), List.append_nil, take_zeros _ _ (by omega)]
    have hX : (restBlock 32 m ++ zeros (32 - d.nx)).length = 32 := by rw [List.length_append, zeros_length, ← hnx]; omega
    obtain ⟨e1, e2, e3⟩ := block_eq (d.s, d.h) m _ h.buf.st d.nx (by omega) hX
    dsimp only at e1 e2 e3
    rw [hx, sigma2_eq _ _ e3, e1]
    rw [show (32 - m.length % 32) % 32 = 32 - d.nx by omega]
    obtain ⟨f1, _⟩ := K12.fullBlocks_rest m (zeros (32 - d.nx)) 32 (by omega)
    rw [fullBlocks_one _ _ (by omega) hX] at f1
    rw [f1, show 8 * (32 * (m.length / 32)) + 8 * d.nx = 8 * m.length by omega]

/-! The inverse of the cipher. -/

/-- The order in which a state is written to the ciphertext. -/
def phi (st : U32 × U32 × U32 × U32) : U32 × U32 × U32 × U32 := (st.2.1, st.2.2.2, st.1, st.2.2.1)

theorem dec_enc_round (ks : Bytes) (i : Nat) (hi : i < 8) (st : U32 × U32 × U32 × U32) : decRound ks (phi (encRound ks st (7 - i))) i = phi st := by
  obtain ⟨a, b, c, d⟩ := st
  unfold decRound encRound phi
  dsimp only
  generalize getLE32 ks (4 * (KIdx.getD (7 - i) []).getD 0 0) = k0
  generalize getLE32 ks (4 * (KIdx.getD (7 - i) []).getD 1 0) = k1
  generalize getLE32 ks (4 * (KIdx.getD (7 - i) []).getD 2 0) = k2
  generalize getLE32 ks (4 * (KIdx.getD (7 - i) []).getD 3 0) = k3
  generalize getLE32 ks (4 * (KIdx.getD (7 - i) []).getD 4 0) = k4
  generalize getLE32 ks (4 * (KIdx.getD (7 - i) []).getD 5 0) = k5
  generalize getLE32 ks (4 * (KIdx.getD (7 - i) []).getD 6 0) = k6
  generalize BitVec.ofNat 32 (7 - i) + 1 = n
  have x1 : ∀ u v : U32, u ^^^ v ^^^ v = u := by intro u v; rw [BitVec.xor_assoc, BitVec.xor_self, BitVec.xor_zero]
  have x2 : ∀ u v : U32, u + v - v = u := by intro u v; exact BitVec.add_sub_cancel u v
  have x3 : ∀ u v : U32, u - v + v = u := by intro u v; exact BitVec.sub_add_cancel u v
  have x4 : ∀ u v w : U32, (u - w) + (v + w) = v + u := by
    intro u v w
    rw [BitVec.add_comm v w, ← BitVec.add_assoc, x3, BitVec.add_comm]
  simp only [x1, x2, x3, x4]

theorem dec_enc_loop (ks : Bytes) (st : U32 × U32 × U32 × U32) : forLoop 0 8 (decRound ks) (phi (forLoop 0 8 (encRound ks) st)) = phi st := by
  rw [loop8 (encRound ks), loop8 (decRound ks)]
  rw [dec_enc_round ks 0 (by omega), dec_enc_round ks 1 (by omega), dec_enc_round ks 2 (by omega), dec_enc_round ks 3 (by omega),
    dec_enc_round ks 4 (by omega), dec_enc_round ks 5 (by omega), dec_enc_round ks 6 (by omega), dec_enc_round ks 7 (by omega)]

theorem getLE32_four (a b c d : U32) : getLE32 (le32 a ++ le32 b ++ le32 c ++ le32 d) 0 = a ∧ getLE32 (le32 a ++ le32 b ++ le32 c ++ le32 d) 4 = b ∧
    getLE32 (le32 a ++ le32 b ++ le32 c ++ le32 d) 8 = c ∧ getLE32 (le32 a ++ le32 b ++ le32 c ++ le32 d) 12 = d := by
  have e : le32 a ++ le32 b ++ le32 c ++ le32 d = [a, b, c, d].flatMap le32 := by simp
  rw [e]
  exact ⟨getLE32_flat _ 0 (by simp), getLE32_flat _ 1 (by simp), getLE32_flat _ 2 (by simp), getLE32_flat _ 3 (by simp)⟩

theorem four_getLE32 (x : Bytes) (h : x.length = 16) : le32 (getLE32 x 0) ++ le32 (getLE32 x 4) ++ le32 (getLE32 x 8) ++ le32 (getLE32 x 12) = x := by
  rw [le32_getLE32_at _ _ (by omega), le32_getLE32_at _ _ (by omega), le32_getLE32_at _ _ (by omega), le32_getLE32_at _ _ (by omega)]
  have e0 : x.drop 12 = (x.drop 12).take 4 := (List.take_of_length_le (by rw [List.length_drop, h])).symm
  have e1 : x.drop 8 = (x.drop 8).take 4 ++ x.drop 12 := by
    conv_lhs => rw [← List.take_append_drop 4 (x.drop 8)]
    rw [List.drop_drop]
  have e2 : x.drop 4 = (x.drop 4).take 4 ++ x.drop 8 := by
    conv_lhs => rw [← List.take_append_drop 4 (x.drop 4)]
    rw [List.drop_drop]
  rw [← e0, List.append_assoc, List.append_assoc, ← e1, ← e2, List.drop_zero, List.take_append_drop]

theorem dec_enc (x ks : Bytes) (h : x.length = 16) : belt_decrypt (belt_encrypt x ks) ks = x := by
  have key := dec_enc_loop ks (getLE32 x 0, getLE32 x 4, getLE32 x 8, getLE32 x 12)
  unfold belt_encrypt belt_decrypt
  generalize forLoop 0 8 (encRound ks) (getLE32 x 0, getLE32 x 4, getLE32 x 8, getLE32 x 12) = y at key
  obtain ⟨a, b, c, d⟩ := y
  dsimp only
  obtain ⟨g0, g1, g2, g3⟩ := getLE32_four b d a c
  rw [g0, g1, g2, g3]
  unfold phi at key
  dsimp only at key
  rw [key]
  exact four_getLE32 x h

end Verif.Belt
