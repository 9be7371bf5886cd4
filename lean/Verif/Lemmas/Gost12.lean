import Verif.Lemmas.Streebog
import Verif.Model.Gost12
namespace Verif.Gost12
open Spec.Streebog (leNat natLE rows8 LPS)

theorem blockXor_eq {x y : Bytes} (hx : x.length = 64) (hy : y.length = 64) : blockXor x y = Spec.Streebog.xor x y := by
  obtain ⟨h1, h2⟩ := setLoop (fun i _ => at8 x i ^^^ at8 y i) 64 (zeros 64) (by simp)
  apply ext_at8
  · rw [Spec.Streebog.xor64 hx hy]; exact h1
  · intro i hi
    have hi' : i < 64 := by have := h1; simp only [zeros_length] at this; unfold blockXor at hi; omega
    unfold Spec.Streebog.xor
    rw [at8_zipWith _ _ _ _ (by omega) (by omega)]
    have := h2 i (by simpa using hi')
    rw [if_pos hi'] at this
    exact this

theorem pi_eq : pi = Spec.Streebog.pi := by decide +kernel
theorem tau_eq : ∀ i, i < 64 → tau.getD i 0 = 8 * (i % 8) + i / 8 := by decide

theorem ps_eq {x : Bytes} (hx : x.length = 64) : ps x = Spec.Streebog.P (Spec.Streebog.S x) := by
  obtain ⟨h1, h2⟩ := permLoop (fun i => tau.getD i 0) (fun i => at8 pi (at8 x i).toNat) 64 (zeros 64)
    (by intro i hi; rw [tau_eq i hi, zeros_length]; omega)
    (by intro i j hi hj h; rw [tau_eq i hi, tau_eq j hj] at h; omega)
  apply ext_at8
  · unfold Spec.Streebog.P; rw [List.length_map, List.length_range]; unfold ps; rw [h1]; rfl
  · intro i hi
    unfold ps at hi
    rw [h1] at hi
    simp only [zeros_length] at hi
    have h := h2 (8 * (i % 8) + i / 8) (by omega)
    rw [tau_eq _ (by omega), show 8 * ((8 * (i % 8) + i / 8) % 8) + (8 * (i % 8) + i / 8) / 8 = i by omega] at h
    unfold Spec.Streebog.P
    rw [at8_map_range _ _ _ hi]
    unfold Spec.Streebog.S
    rw [at8_map _ _ _ (by omega), ← pi_eq]
    exact h

set_option maxRecDepth 100000 in
theorem a_eq : ∀ i, i < 64 → a i = Spec.Streebog.A.getD i 0 := by decide +kernel

theorem top_bit (v : Byte) : (v &&& (0x80 : Byte) > 0) ↔ v.getLsbD 7 = true := by
  revert v; decide

theorem cache_eq (k : Nat) (hk : k < 8) (v : Byte) : cache k v = rows8 (7 - k) v := by
  unfold cache rows8
  have step : ∀ (s : Byte) (r w : U64), (if s &&& 0x80 > 0 then r ^^^ w else r) = r ^^^ (if s.getLsbD 7 then w else 0) := by
    intro s r w
    by_cases h : s.getLsbD 7 = true
    · rw [if_pos ((top_bit _).mpr h), if_pos h]
    · rw [if_neg (fun h' => h ((top_bit _).mp h')), if_neg h, BitVec.ofNat_eq_ofNat, BitVec.xor_zero]
  have key : ∀ j, j ≤ 8 → forLoop 0 j (fun (st : Byte × U64) bitN =>
      (st.1 <<< 1, if st.1 &&& 0x80 > 0 then st.2 ^^^ a ((7 - k) * 8 + bitN) else st.2)) (v, 0) =
      (v <<< j, (List.range j).foldl (fun acc i => acc ^^^ (if v.getLsbD (7 - i) then Spec.Streebog.A.getD (8 * (7 - k) + i) 0 else 0)) 0) := by
    intro j
    induction j with
    | zero => intro _; rw [forLoop_nil _ _ _ _ (Nat.le_refl _)]; simp
    | succ j ih =>
      intro hj
      rw [forLoop_succ _ _ _ _ (Nat.zero_le _), ih (by omega), List.range_succ, List.foldl_append]
      simp only [step]
      have e1 : (v <<< j).getLsbD 7 = v.getLsbD (7 - j) := by
        rw [BitVec.getLsbD_shiftLeft]; simp; omega
      have e2 : (v <<< j) <<< 1 = v <<< (j + 1) := by rw [← BitVec.shiftLeft_add]
      simp only [List.foldl_cons, List.foldl_nil]
      rw [e1, e2, a_eq _ (by omega), Nat.mul_comm (7 - k) 8]
  have := key 8 (Nat.le_refl _)
  exact congrArg Prod.snd this

theorem l_eq (x : Bytes) : l x = Spec.Streebog.L x := by
  unfold l Spec.Streebog.L
  rw [copyLoop 8 (fun i => le64 (0 ^^^ cache 0 (at8 x (8*i+0)) ^^^ cache 1 (at8 x (8*i+1)) ^^^ cache 2 (at8 x (8*i+2)) ^^^
      cache 3 (at8 x (8*i+3)) ^^^ cache 4 (at8 x (8*i+4)) ^^^ cache 5 (at8 x (8*i+5)) ^^^
      cache 6 (at8 x (8*i+6)) ^^^ cache 7 (at8 x (8*i+7)))) (fun _ => rfl) 8 (zeros 64) (by simp)]
  congr 2
  funext i
  congr 1
  rw [Spec.Streebog.lin_bytes]
  rw [cache_eq 0 (by decide), cache_eq 1 (by decide), cache_eq 2 (by decide), cache_eq 3 (by decide), cache_eq 4 (by decide), cache_eq 5 (by decide),
    cache_eq 6 (by decide), cache_eq 7 (by decide)]
  simp only [BitVec.ofNat_eq_ofNat, BitVec.zero_xor, Nat.add_zero, Nat.sub_self, Nat.sub_zero, Nat.reduceSub]
  ac_rfl

theorem lps_eq {x : Bytes} (hx : x.length = 64) : l (ps x) = LPS x := by
  rw [l_eq, ps_eq hx]; rfl

set_option maxRecDepth 100000 in
theorem c_eq : c = Spec.Streebog.C.map (natLE 64) := by decide +kernel

theorem e_eq {k m : Bytes} (hk : k.length = 64) (hm : m.length = 64) : e k m = Spec.Streebog.E k m := by
  unfold e Spec.Streebog.E
  have hf := foldl_eq_forLoop c ([] : Bytes) (fun (st : Bytes × Bytes) c => (l (ps (blockXor st.1 c)), l (ps (blockXor st.1 st.2)))) (k, m)
  have hcl : c.length = 12 := rfl
  rw [hcl] at hf
  simp only
  rw [← hf, c_eq, List.foldl_map]
  suffices h : ∀ (cs : List Nat) (st : Bytes × Bytes), st.1.length = 64 → st.2.length = 64 →
      cs.foldl (fun (st : Bytes × Bytes) c => (l (ps (blockXor st.1 (natLE 64 c))), l (ps (blockXor st.1 st.2)))) st =
      cs.foldl (fun (st : Bytes × Bytes) c => (LPS (Spec.Streebog.xor st.1 (natLE 64 c)), LPS (Spec.Streebog.xor st.1 st.2))) st ∧
      (cs.foldl (fun (st : Bytes × Bytes) c => (LPS (Spec.Streebog.xor st.1 (natLE 64 c)), LPS (Spec.Streebog.xor st.1 st.2))) st).1.length = 64 ∧
      (cs.foldl (fun (st : Bytes × Bytes) c => (LPS (Spec.Streebog.xor st.1 (natLE 64 c)), LPS (Spec.Streebog.xor st.1 st.2))) st).2.length = 64 by
    obtain ⟨h1, h2, h3⟩ := h Spec.Streebog.C (k, m) hk hm
    rw [h1, blockXor_eq h2 h3]
  intro cs
  induction cs with
  | nil => intro st h1 h2; exact ⟨rfl, h1, h2⟩
  | cons c cs ih =>
    intro st h1 h2
    rw [List.foldl_cons, List.foldl_cons]
    have hn := Spec.Streebog.natLE_length 64 c
    rw [blockXor_eq h1 hn, blockXor_eq h1 h2, lps_eq (Spec.Streebog.xor64 h1 hn), lps_eq (Spec.Streebog.xor64 h1 h2)]
    exact ih _ (Spec.Streebog.LPS_length _) (Spec.Streebog.LPS_length _)

theorem natLE_word (n : Nat) (hn : n < 2 ^ 64) (k : Nat) : natLE (8 + k) n = le64 (BitVec.ofNat 64 n) ++ zeros k := by
  have h1 : natLE (8 + k) n = natLE 8 n ++ zeros k := by
    have hz : ∀ k, natLE k 0 = zeros k := by
      intro k
      induction k with
      | zero => rfl
      | succ k ih => rw [natLE, ih]; rfl
    have ha : ∀ j n, natLE (j + k) n = natLE j n ++ natLE k (n / 256 ^ j) := by
      intro j
      induction j with
      | zero => intro n; simp [natLE]
      | succ j ih =>
        intro n
        rw [show j + 1 + k = (j + k) + 1 by omega, natLE, natLE, ih, List.cons_append, Nat.div_div_eq_div_mul, Nat.pow_succ (n := 256), Nat.mul_comm (256 ^ j) 256]
    rw [ha, Nat.div_eq_of_lt hn, hz]
  rw [h1]
  congr 1
  apply ext_at8 (by rw [Spec.Streebog.natLE_length]; rfl)
  intro i hi
  rw [Spec.Streebog.natLE_length] at hi
  have hg : ∀ k i n, i < k → at8 (natLE k n) i = BitVec.ofNat 8 (n / 256 ^ i) := by
    intro k
    induction k with
    | zero => intro i n h; omega
    | succ k ih =>
      intro i n h
      cases i with
      | zero => simp [natLE, at8]
      | succ i =>
        have := ih i (n / 256) (by omega)
        rw [Nat.div_div_eq_div_mul, ← Nat.pow_succ'] at this
        rw [← this, natLE]
        rfl
  rw [hg _ _ _ hi, le64_get hi]
  apply BitVec.eq_of_toNat_eq
  rw [BitVec.toNat_ofNat, BitVec.extractLsb'_toNat, BitVec.toNat_ofNat, Nat.mod_eq_of_lt hn, Nat.shiftRight_eq_div_pow, show (256 : Nat) = 2 ^ 8 from rfl, ← Nat.pow_mul]

theorem byte_of (n : U64) (i : Nat) (hi : i < 8) : ((n >>> (8 * i)) &&& 0xFF#64).setWidth 8 = at8 (le64 n) i := by
  rw [le64_get hi]
  apply BitVec.eq_of_getLsbD_eq
  intro j hj
  have hb : ∀ j, j < 8 → (0xFF#64).getLsbD j = true := by decide
  rw [BitVec.getLsbD_setWidth, BitVec.getLsbD_and, BitVec.getLsbD_ushiftRight, BitVec.getLsbD_extractLsb', hb j hj]
  simp

theorem g_eq {n : Nat} {h m : Bytes} (hn : n < 2 ^ 64) (hh : h.length = 64) (hm : m.length = 64) :
    g (BitVec.ofNat 64 n) h m = Spec.Streebog.g n h m := by
  unfold g Spec.Streebog.g
  obtain ⟨h1, h2⟩ := setLoop (fun i b => b ^^^ ((BitVec.ofNat 64 n >>> (8 * i)) &&& 0xFF).setWidth 8) 8 h (by omega)
  have ho : forLoop 0 8 (fun (out : Bytes) i => out.set i (at8 out i ^^^ ((BitVec.ofNat 64 n >>> (8 * i)) &&& 0xFF).setWidth 8)) h =
      Spec.Streebog.xor h (natLE 64 n) := by
    apply ext_at8
    · rw [Spec.Streebog.xor64 hh (Spec.Streebog.natLE_length _ _)]; exact h1.trans hh
    · intro i hi
      rw [h1] at hi
      unfold Spec.Streebog.xor
      have hl := Spec.Streebog.natLE_length 64 n
      rw [at8_zipWith _ _ _ _ (by omega) (by omega), natLE_word n hn 56]
      refine (h2 i hi).trans ?_
      by_cases h8 : i < 8
      · rw [if_pos h8, at8_append_left _ _ _ h8, ← byte_of _ _ h8]; rfl
      · rw [if_neg h8, at8_append_right _ _ _ (by rw [le64_length]; omega), at8_zeros]; simp
  simp only
  rw [ho, lps_eq (Spec.Streebog.xor64 hh (Spec.Streebog.natLE_length _ _)), e_eq (Spec.Streebog.LPS_length _) hm]
  have he := Spec.Streebog.E_length (Spec.Streebog.LPS_length (Spec.Streebog.xor h (natLE 64 n))) hm
  rw [blockXor_eq he hh, blockXor_eq (Spec.Streebog.xor64 he hh) hm]

theorem leNat_take_succ (b : Bytes) (j : Nat) (hj : j < b.length) : leNat (b.take (j + 1)) = leNat (b.take j) + 256 ^ j * (at8 b j).toNat := by
  have : b.take (j + 1) = b.take j ++ [at8 b j] := by
    rw [List.take_succ_eq_append_getElem hj]
    unfold at8
    rw [List.getD_eq_getElem?_getD, List.getElem?_eq_getElem hj]
    rfl
  rw [this, Spec.Streebog.leNat_append, List.length_take, Nat.min_eq_left (by omega)]
  simp [leNat]

theorem p512 : (256 : Nat) ^ 64 = 2 ^ 512 := by rw [show (256 : Nat) = 2 ^ 8 from rfl, ← Nat.pow_mul]

theorem add512bit_eq {x y : Bytes} (hx : x.length = 64) (hy : y.length = 64) : (add512bit x y).length = 64 ∧
    leNat (add512bit x y) = (leNat x + leNat y) % 2 ^ 512 := by
  unfold add512bit
  have h := forLoop_inv (a := 0) (b := 64) (s := ((0, zeros 64) : BitVec 16 × Bytes))
    (body := fun (st : BitVec 16 × Bytes) i =>
      ((at8 x i).setWidth 16 + (at8 y i).setWidth 16 + (st.1 >>> 8),
       st.2.set i ((0xFF#16 &&& ((at8 x i).setWidth 16 + (at8 y i).setWidth 16 + (st.1 >>> 8))).setWidth 8)))
    (fun j (st : BitVec 16 × Bytes) => st.2.length = 64 ∧ st.1.toNat < 512 ∧
      leNat (st.2.take j) + 256 ^ j * (st.1.toNat / 256) = leNat (x.take j) + leNat (y.take j)) (Nat.zero_le _)
    ⟨rfl, by decide, by simp [leNat]⟩ ?_
  · obtain ⟨h1, h2, h3⟩ := h
    refine ⟨h1, ?_⟩
    rw [List.take_of_length_le (Nat.le_of_eq h1), List.take_of_length_le (Nat.le_of_eq hx), List.take_of_length_le (Nat.le_of_eq hy)] at h3
    have hlt := Spec.Streebog.leNat_lt (forLoop 0 64 (fun (st : BitVec 16 × Bytes) i =>
      ((at8 x i).setWidth 16 + (at8 y i).setWidth 16 + (st.1 >>> 8),
       st.2.set i ((0xFF#16 &&& ((at8 x i).setWidth 16 + (at8 y i).setWidth 16 + (st.1 >>> 8))).setWidth 8))) ((0, zeros 64) : BitVec 16 × Bytes)).2
    rw [h1] at hlt
    rw [← h3, p512, Nat.add_mul_mod_self_left]
    rw [p512] at hlt
    exact (Nat.mod_eq_of_lt hlt).symm
  · rintro j ⟨ss, o⟩ _ hj ⟨h1, h2, h3⟩
    simp only at h1 h2 h3 ⊢
    have hss : ((at8 x j).setWidth 16 + (at8 y j).setWidth 16 + (ss >>> 8)).toNat = (at8 x j).toNat + (at8 y j).toNat + ss.toNat / 256 := by
      have b1 := (at8 x j).isLt
      have b2 := (at8 y j).isLt
      rw [BitVec.toNat_add, BitVec.toNat_add, BitVec.toNat_setWidth, BitVec.toNat_setWidth, BitVec.toNat_ushiftRight, Nat.shiftRight_eq_div_pow]
      omega
    generalize hS : (at8 x j).setWidth 16 + (at8 y j).setWidth 16 + (ss >>> 8) = S at hss ⊢
    have b1 := (at8 x j).isLt
    have b2 := (at8 y j).isLt
    refine ⟨by rw [List.length_set, h1], by omega, ?_⟩
    have hlow : ((0xFF#16 &&& S).setWidth 8).toNat = S.toNat % 256 := by
      rw [BitVec.toNat_setWidth, BitVec.toNat_and]
      have : (255#16).toNat &&& S.toNat = S.toNat % 256 := by
        rw [Nat.and_comm]
        exact Nat.and_two_pow_sub_one_eq_mod S.toNat 8
      exact (congrArg (· % 2 ^ 8) this).trans (by omega)
    rw [leNat_take_succ _ _ (by rw [List.length_set, h1]; exact hj), leNat_take_succ _ _ (by omega), leNat_take_succ _ _ (by omega), at8_set,
      if_pos ⟨rfl, by omega⟩, hlow, List.take_set_of_le (Nat.le_refl j)]
    have hs : S.toNat = S.toNat % 256 + 256 * (S.toNat / 256) := by omega
    have e : 256 ^ (j + 1) * (S.toNat / 256) = 256 ^ j * (256 * (S.toNat / 256)) := by rw [Nat.pow_succ, Nat.mul_assoc]
    rw [e, Nat.add_assoc, ← Nat.mul_add, ← hs, hss, Nat.mul_add, Nat.mul_add]
    omega

end Verif.Gost12

namespace Verif.Gost12
open Spec.Streebog (leNat natLE absorb)

theorem mod512 {n : Nat} (h : n < 2 ^ 64) : n % 2 ^ 512 = n :=
  Nat.mod_eq_of_lt (Nat.lt_trans h (Nat.pow_lt_pow_right (by decide) (by decide)))

theorem absorb_n (st : Bytes × Nat × Nat) (b : Bytes) (h : st.2.1 + 512 < 2 ^ 64) : (absorb st b).2.1 = st.2.1 + 512 := by
  unfold absorb
  exact mod512 h

theorem absorb_c (st : Bytes × Nat × Nat) (b : Bytes) : (absorb st b).2.2 = (st.2.2 + leNat b) % 2 ^ 512 := by
  unfold absorb
  rfl

theorem absorb_h (st : Bytes × Nat × Nat) (b : Bytes) : (absorb st b).1 = Spec.Streebog.g st.2.1 st.1 b := by
  unfold absorb
  rfl

theorem n512 (n : Nat) : BitVec.ofNat 64 n + 64 * 8 = BitVec.ofNat 64 (n + 512) := by
  rw [BitVec.ofNat_add]
  rfl

theorem padGen {B : Nat} {p : Bytes} (hp : p.length < B) (v : Byte) :
    (goCopy (zeros B) 0 p).set p.length v = p ++ [v] ++ zeros (B - 1 - p.length) := by
  have e : goCopy (zeros B) 0 p = p ++ zeros (B - p.length) := by
    unfold goCopy
    rw [List.take_zero, List.nil_append, List.take_of_length_le (by simp; omega), Nat.zero_add]
    unfold zeros
    rw [List.drop_replicate]
  have e2 : zeros (B - p.length) = 0#8 :: zeros (B - 1 - p.length) := by
    rw [show B - p.length = (B - 1 - p.length) + 1 by omega]; rfl
  rw [e, e2, List.set_append, if_neg (by omega), Nat.sub_self, List.set_cons_zero]
  simp

theorem foldN (bs : List Bytes) : ∀ st : Bytes × Nat × Nat, st.2.1 + 512 * bs.length < 2 ^ 64 →
    (bs.foldl absorb st).2.1 = st.2.1 + 512 * bs.length := by
  induction bs with
  | nil => intro st _; rfl
  | cons b bs ih =>
    intro st h
    rw [List.length_cons] at h
    have h5 : st.2.1 + 512 + 512 * bs.length < 2 ^ 64 := by omega
    have hn := absorb_n st b (Nat.lt_of_le_of_lt (Nat.le_add_right _ _) h5)
    rw [List.foldl_cons, ih _ (by rw [hn]; exact h5), hn, List.length_cons]; omega

theorem foldLen (bs : List Bytes) (hb : ∀ b ∈ bs, b.length = 64) : ∀ st : Bytes × Nat × Nat, st.1.length = 64 → (bs.foldl absorb st).1.length = 64 := by
  induction bs with
  | nil => intro st h; exact h
  | cons b bs ih =>
    intro st h
    rw [List.foldl_cons]
    exact ih (fun x hx => hb x (List.mem_cons_of_mem _ hx)) _ (by rw [absorb_h]; exact Spec.Streebog.g_length h (hb b (List.mem_cons_self ..)))

/-- The chaining part of the state stands for `st`. -/
structure Chain (d : Digest) (st : Bytes × Nat × Nat) : Prop where
  hsh : d.hsh = st.1
  hlen : d.hsh.length = 64
  n : d.n = BitVec.ofNat 64 st.2.1
  clen : d.chk.length = 64
  chk : leNat d.chk = st.2.2

/-- One turn of the loop. -/
def stepBlk (d : Digest) : Digest :=
  { d with hsh := g d.n d.hsh (d.buf.take 64), chk := add512bit d.chk (d.buf.take 64), n := d.n + 64 * 8, buf := d.buf.drop 64 }

theorem stepBlk_chain {d : Digest} {st : Bytes × Nat × Nat} (hc : Chain d st) (hl : 64 ≤ d.buf.length) (h5 : st.2.1 + 512 < 2 ^ 64) :
    Chain (stepBlk d) (absorb st (d.buf.take 64)) := by
  have ht : (d.buf.take 64).length = 64 := by rw [List.length_take]; omega
  have hn := absorb_n st (d.buf.take 64) h5
  obtain ⟨a1, a2, a3, a4, a5⟩ := hc
  obtain ⟨b1, b2⟩ := add512bit_eq a4 ht
  have hg : g d.n d.hsh (d.buf.take 64) = Spec.Streebog.g st.2.1 st.1 (d.buf.take 64) := by
    rw [a3, g_eq (Nat.lt_of_le_of_lt (Nat.le_add_right _ _) h5) a2 ht, a1]
  have hgl : (g d.n d.hsh (d.buf.take 64)).length = 64 := by
    rw [hg]; exact Spec.Streebog.g_length (by rw [← a1]; exact a2) ht
  constructor
  · rw [absorb_h, ← hg]; unfold stepBlk; dsimp only
  · unfold stepBlk; dsimp only; exact hgl
  · unfold stepBlk; dsimp only; rw [hn, ← n512, ← a3]
  · unfold stepBlk; dsimp only; exact b1
  · unfold stepBlk; dsimp only; rw [absorb_c, ← a5]; exact b2

theorem writeLoop_spec : ∀ fuel (d : Digest) (st : Bytes × Nat × Nat), d.buf.length ≤ fuel → Chain d st → st.2.1 + 8 * d.buf.length < 2 ^ 64 →
    Chain (writeLoop fuel d) ((fullBlocks 64 d.buf).foldl absorb st) ∧ (writeLoop fuel d).buf = restBlock 64 d.buf ∧ (writeLoop fuel d).size = d.size := by
  intro fuel
  induction fuel with
  | zero =>
    intro d st h hc hN
    have : d.buf = [] := List.length_eq_zero_iff.mp (by omega)
    rw [this]
    exact ⟨hc, by rw [writeLoop, this]; rfl, rfl⟩
  | succ n ih =>
    intro d st h hc hN
    by_cases hl : d.buf.length ≥ 64
    · have hw : writeLoop (n + 1) d = writeLoop n (stepBlk d) := by rw [writeLoop, if_pos hl]; rfl
      have ht : (d.buf.take 64).length = 64 := by rw [List.length_take]; omega
      have h1 := fullBlocks_append 64 (d.buf.take 64) (d.buf.drop 64) (by decide) (by omega)
      have h2 := restBlock_append 64 (d.buf.take 64) (d.buf.drop 64) (by decide) (by omega)
      rw [List.take_append_drop] at h1 h2
      rw [hw, h1, h2, fullBlocks_one 64 _ (by decide) ht, List.foldl_append]
      have h5 : st.2.1 + 512 < 2 ^ 64 := by omega
      have hb : (stepBlk d).buf = d.buf.drop 64 := rfl
      have hbl : (stepBlk d).buf.length = d.buf.length - 64 := by rw [hb, List.length_drop]
      have h6 : st.2.1 + 512 + 8 * (stepBlk d).buf.length < 2 ^ 64 := by omega
      have h7 : (stepBlk d).buf.length ≤ n := by omega
      have := ih (stepBlk d) (absorb st (d.buf.take 64)) h7 (stepBlk_chain hc hl h5) (by rw [absorb_n _ _ h5]; exact h6)
      rw [hb] at this
      exact this
    · have hw : writeLoop (n + 1) d = d := by rw [writeLoop, if_neg hl]
      rw [hw, fullBlocks_lt 64 _ (by omega), restBlock_lt 64 _ (by omega)]
      exact ⟨hc, rfl, rfl⟩

/-- The initial value. -/
def iv (size : Nat) : Bytes := if size = 32 then List.replicate 64 1#8 else zeros 64
theorem iv_length (size : Nat) : (iv size).length = 64 := by unfold iv; split <;> rfl

/-- The states that stand for message `m`. -/
structure Repr (size : Nat) (d : Digest) (m : Bytes) : Prop where
  sz : d.size = size
  buf : d.buf = restBlock 64 m
  chain : Chain d ((fullBlocks 64 m).foldl absorb (iv size, 0, 0))

theorem repr_reset {size : Nat} {d : Digest} (h : d.size = size) : Repr size (reset d) [] := by
  refine ⟨h, rfl, ?_⟩
  rw [fullBlocks_nil]
  refine ⟨?_, ?_, rfl, rfl, ?_⟩
  · show (if d.size = 32 then _ else _) = iv size
    rw [h]; rfl
  · show (if d.size = 32 then _ else _ : Bytes).length = 64
    split <;> rfl
  · show leNat (zeros 64) = 0
    decide

theorem N_eq (size : Nat) (m : Bytes) (h : m.length < 2 ^ 61) :
    ((fullBlocks 64 m).foldl absorb (iv size, 0, 0)).2.1 = 512 * (m.length / 64) := by
  rw [foldN _ _ (by rw [fullBlocks_length]; show 0 + _ < _; omega), fullBlocks_length]
  show 0 + _ = _; omega

theorem repr_write {size : Nat} {d : Digest} {m : Bytes} (h : Repr size d m) (p : Bytes) (hl : (m ++ p).length < 2 ^ 61) :
    Repr size (write d p) (m ++ p) := by
  obtain ⟨h1, h2, h3⟩ := h
  unfold write
  rw [List.length_append] at hl
  have hrl := restBlock_length 64 m
  obtain ⟨a1, a2, a3⟩ := writeLoop_spec (d.buf ++ p).length { d with buf := d.buf ++ p } _ (Nat.le_refl _) ⟨h3.1, h3.2, h3.3, h3.4, h3.5⟩ (by
    show _ + 8 * (d.buf ++ p).length < _
    rw [N_eq size m (by omega), h2, List.length_append, hrl]; omega)
  have hm := fullBlocks_flatten_append_rest 64 m
  have hfl : (fullBlocks 64 m).flatten.length % 64 = 0 := by
    rw [fullBlocks_flatten, List.length_take]
    have := Nat.div_mul_le_self m.length 64
    omega
  have e : m ++ p = (fullBlocks 64 m).flatten ++ (restBlock 64 m ++ p) := by rw [← List.append_assoc, hm]
  have hff : fullBlocks 64 (fullBlocks 64 m).flatten = fullBlocks 64 m := by
    have h2 := fullBlocks_append 64 (fullBlocks 64 m).flatten (restBlock 64 m) (by decide) hfl
    rw [hm, fullBlocks_lt 64 (restBlock 64 m) (by omega), List.append_nil] at h2
    exact h2.symm
  refine ⟨a3.trans h1, ?_, ?_⟩
  · rw [a2, e, restBlock_append 64 _ _ (by decide) hfl]
    show restBlock 64 (d.buf ++ p) = _
    rw [h2]
  · rw [e, fullBlocks_append 64 _ _ (by decide) hfl, List.foldl_append, hff]
    have : ({ d with buf := d.buf ++ p } : Digest).buf = restBlock 64 m ++ p := by rw [← h2]
    rw [← this]
    exact a1

theorem repr_sum {size : Nat} {d : Digest} {m : Bytes} (hs : size = 32 ∨ size = 64) (h : Repr size d m) (hl : m.length < 2 ^ 61) :
    checkSum d = some (Spec.Streebog.hash size m) := by
  obtain ⟨h1, h2, h3⟩ := h
  have hrl := restBlock_length 64 m
  have hN := N_eq size m hl
  unfold checkSum
  rw [if_neg (by rw [h2]; omega)]
  simp only
  rw [padGen (by rw [h2]; omega), h2]
  have hpl : (restBlock 64 m ++ [1#8] ++ zeros (64 - 1 - (restBlock 64 m).length)).length = 64 := by simp; omega
  obtain ⟨a1, a2, a3, a4, a5⟩ := h3
  unfold Spec.Streebog.hash
  simp only
  rw [show (if size = 32 then List.replicate 64 1#8 else zeros 64) = iv size from rfl]
  generalize hst : (fullBlocks 64 m).foldl absorb (iv size, 0, 0) = st at *
  obtain ⟨H, N, Sg⟩ := st
  simp only at a1 a3 a5 hN
  rw [show 63 - m.length % 64 = 64 - 1 - (restBlock 64 m).length by omega]
  generalize restBlock 64 m ++ [1#8] ++ zeros (64 - 1 - (restBlock 64 m).length) = pd at *
  have g1 : g d.n d.hsh pd = Spec.Streebog.g N H pd := by rw [a3, g_eq (by omega) a2 hpl, a1]
  have l1 := Spec.Streebog.g_length (N := N) (h := H) (by rw [← a1]; exact a2) hpl
  have ht : goCopy (zeros 64) 0 (le64 (d.n + BitVec.ofNat 64 (restBlock 64 m).length * 8)) = natLE 64 ((N + 8 * (m.length % 64)) % 2 ^ 512) := by
    rw [mod512 (by omega), natLE_word _ (by omega) 56]
    have : d.n + BitVec.ofNat 64 (restBlock 64 m).length * 8 = BitVec.ofNat 64 (N + 8 * (m.length % 64)) := by
      rw [a3, BitVec.ofNat_add, hrl, Nat.mul_comm, BitVec.ofNat_mul]
      rfl
    rw [this]
    rfl
  obtain ⟨b1, b2⟩ := add512bit_eq a4 hpl
  have hadd : add512bit d.chk pd = natLE 64 ((Sg + leNat pd) % 2 ^ 512) := by
    rw [← a5, ← b2]
    have := Spec.Streebog.natLE_leNat (add512bit d.chk pd)
    rw [b1] at this
    exact this.symm
  have z : (0 : U64) = BitVec.ofNat 64 0 := rfl
  rw [g1, ht, hadd, z, g_eq (by decide) l1 (Spec.Streebog.natLE_length _ _),
    g_eq (by decide) (Spec.Streebog.g_length l1 (Spec.Streebog.natLE_length _ _)) (Spec.Streebog.natLE_length _ _)]
  rcases hs with rfl | rfl
  · rw [if_pos h1]
  · rw [if_neg (by rw [h1]; decide)]; rfl

end Verif.Gost12
