import Verif.Lemmas.Makwa
/-
Hash, CheckPassword, Recover, Extend of package makwa.
-/
namespace Verif.Makwa
open Verif.Spec (beNat beBytes)

theorem block_length (A : Alg) (hA : A.Good) (k : Nat) (salt pw : Bytes) (h : pw.length + 2 ≤ k) : (block A k salt pw).length = k := by
  unfold block
  dsimp only
  simp only [List.length_append, List.length_cons, List.length_nil, kdf_length A hA]
  omega

theorem block_lt (A : Alg) (hA : A.Good) (N : Nat) (salt pw : Bytes) (h : pw.length + 2 ≤ bitLen N / 8) : beNat (block A (bitLen N / 8) salt pw) < N := by
  have hl := block_length A hA (bitLen N / 8) salt pw h
  set k := bitLen N / 8 with hk
  have hcons : ∃ r, block A k salt pw = 0#8 :: r ∧ r.length + 1 = k := by
    refine ⟨kdf A (salt ++ pw ++ [BitVec.ofNat 8 pw.length]) (k - 2 - pw.length) ++ pw ++ [BitVec.ofNat 8 pw.length], rfl, ?_⟩
    simp only [List.length_append, List.length_cons, List.length_nil, kdf_length A hA]
    omega
  obtain ⟨r, hr, hrl⟩ := hcons
  rw [hr, Spec.beNat_cons]
  have h1 : beNat r < 256 ^ r.length := Spec.beNat_lt r
  have hN : N ≠ 0 := by intro e; rw [hk, e] at h; simp [bitLen] at h
  have h2 : 2 ^ (bitLen N - 1) ≤ N := by
    unfold bitLen; rw [if_neg hN, Nat.add_sub_cancel]; exact Nat.log2_self_le hN
  have h3 : 256 ^ r.length ≤ 2 ^ (bitLen N - 1) := by
    rw [show 256 = 2 ^ 8 from rfl, ← Nat.pow_mul]
    apply Nat.pow_le_pow_right (by omega); omega
  simp only [BitVec.toNat_ofNat, Nat.zero_mod, Nat.zero_mul, Nat.zero_add]
  omega

/-- The password that goes into the padded block. -/
def inner (P : Params) (pre : Bool) (pw : Bytes) : Bytes := if pre then kdf P.A pw 64 else pw

/-- When Hash succeeds, and with what. -/
theorem Hash_ok (P : Params) (pw salt : Bytes) (wf : Int) (pre : Bool) (post : Int) (d : Digest) : Hash P pw salt wf pre post = .ok d ↔
    (wfMant (u32 wf)).isSome ∧ 160 ≤ bitLen P.N / 8 ∧ (inner P pre pw).length ≤ 255 ∧ (inner P pre pw).length + 32 ≤ bitLen P.N / 8 ∧
    d = { modulusID := P.modulusID, hash := (let out := pad P.N (squares P.N (wf + 1).toNat (beNat (block P.A (bitLen P.N / 8) salt (inner P pre pw))));
          if post > 0 then kdf P.A out post.toNat else out), salt := salt, workFactor := wf, preHash := pre, postHashLen := post } := by
  unfold Hash inner
  cases hw : wfMant (u32 wf) with
  | none => simp
  | some r =>
    dsimp only
    by_cases h1 : bitLen P.N / 8 < 160
    · rw [if_pos h1]
      constructor
      · intro h; simp at h
      · intro h; omega
    · rw [if_neg h1]
      by_cases h2 : (if pre = true then kdf P.A pw 64 else pw).length > 255 ∨ (((if pre = true then kdf P.A pw 64 else pw).length : Nat) : Int) > ((bitLen P.N / 8 : Nat) : Int) - 32
      · rw [if_pos h2]
        constructor
        · intro h; simp at h
        · intro h; omega
      · rw [if_neg h2]
        constructor
        · intro h
          refine ⟨rfl, by omega, by omega, by omega, ?_⟩
          injection h with h; exact h.symm
        · intro h; rw [h.2.2.2.2]

theorem hash_lt (P : Params) (hA : P.A.Good) (pw salt : Bytes) (n : Nat) (h : pw.length + 32 ≤ bitLen P.N / 8) :
    squares P.N n (beNat (block P.A (bitLen P.N / 8) salt pw)) < P.N := by
  have hx := block_lt P.A hA P.N salt pw (by omega)
  exact squares_lt _ _ _ (by omega) hx

/-- CheckPassword accepts exactly when Hash, with the stored parameters, gives the stored hash. -/
theorem check_ok (P : Params) (d : Digest) (pw : Bytes) : CheckPassword P d pw = .ok () ↔
    d.modulusID = P.modulusID ∧ ∃ d', Hash P pw d.salt d.workFactor d.preHash d.postHashLen = .ok d' ∧ d.hash = d'.hash := by
  unfold CheckPassword
  by_cases hm : d.modulusID = P.modulusID
  · rw [if_neg (not_not.2 hm)]
    cases hh : Hash P pw d.salt d.workFactor d.preHash d.postHashLen with
    | error e => simp
    | ok d' =>
      dsimp only
      by_cases he : d.hash = d'.hash
      · rw [if_neg (not_not.2 he)]; simp [hm, he]
      · rw [if_pos he]; simp [he]
  · rw [if_pos hm]; simp [hm]

theorem at8_append_last (a : Bytes) (x : Byte) : at8 (a ++ [x]) a.length = x := by
  unfold at8; rw [List.getD_eq_getElem?_getD, List.getElem?_append_right (Nat.le_refl _)]; simp

/-- A candidate that passes is the padded block of the password returned. -/
theorem tryRoot_some (P : Params) (salt : Bytes) (v : Nat) (pw : Bytes) (h : tryRoot P salt v = some pw) :
    pad P.N v = block P.A (pad P.N v).length salt pw ∧ pw.length ≤ 255 ∧ pw.length + 32 ≤ (pad P.N v).length := by
  unfold tryRoot at h
  dsimp only at h
  generalize pad P.N v = buf at h ⊢
  split at h
  · simp at h
  · split at h
    · simp at h
    · rename_i hu
      split at h
      · rename_i hx
        injection h with h
        have hul := (at8 buf (buf.length - 1)).isLt
        have hpl : ((buf.drop (buf.length - (at8 buf (buf.length - 1)).toNat - 1)).take (at8 buf (buf.length - 1)).toNat).length = (at8 buf (buf.length - 1)).toNat := by
          rw [List.length_take, List.length_drop]; omega
        rw [h] at hpl hx
        refine ⟨?_, by omega, by omega⟩
        unfold block
        dsimp only
        rw [hpl]
        exact hx.symm
      · simp at h

/-- The block of a password passes. -/
theorem tryRoot_block (P : Params) (hA : P.A.Good) (salt pw : Bytes) (v k : Nat) (hb : pad P.N v = block P.A k salt pw) (h1 : pw.length ≤ 255) (h2 : pw.length + 32 ≤ k) :
    tryRoot P salt v = some pw := by
  have hl := block_length P.A hA k salt pw (by omega)
  have hlast : at8 (block P.A k salt pw) (k - 1) = BitVec.ofNat 8 pw.length := by
    have e : block P.A k salt pw = ([0x00] ++ kdf P.A (salt ++ pw ++ [BitVec.ofNat 8 pw.length]) (k - 2 - pw.length) ++ pw) ++ [BitVec.ofNat 8 pw.length] := rfl
    have e2 : k - 1 = ([0x00] ++ kdf P.A (salt ++ pw ++ [BitVec.ofNat 8 pw.length]) (k - 2 - pw.length) ++ pw).length := by
      simp only [List.length_append, List.length_cons, List.length_nil, kdf_length P.A hA]; omega
    rw [e, e2, at8_append_last]
  have hpw : ((block P.A k salt pw).drop (k - pw.length - 1)).take pw.length = pw := by
    have e : block P.A k salt pw = ([0x00] ++ kdf P.A (salt ++ pw ++ [BitVec.ofNat 8 pw.length]) (k - 2 - pw.length)) ++ (pw ++ [BitVec.ofNat 8 pw.length]) := by
      unfold block; dsimp only; rw [List.append_assoc]
    have e2 : ([0x00] ++ kdf P.A (salt ++ pw ++ [BitVec.ofNat 8 pw.length]) (k - 2 - pw.length)).length = k - pw.length - 1 := by
      simp only [List.length_append, List.length_cons, List.length_nil, kdf_length P.A hA]; omega
    rw [e, List.drop_left' e2, List.take_left' rfl]
  have hu : (BitVec.ofNat 8 pw.length).toNat = pw.length := by rw [BitVec.toNat_ofNat]; omega
  unfold tryRoot
  dsimp only
  rw [hb, hl, hlast, hu, if_neg (by rw [not_not]; rfl), if_neg (by omega), hpw]
  exact if_pos rfl

section recover
variable {p q : Nat} [hp : Fact p.Prime] [hq : Fact q.Prime]

/-- The residue of a candidate. -/
theorem cand_res (h3 : p % 4 = 3) (x n z : Nat) (hz : z = (x ^ 2 ^ (n + 1) % p) ^ sqrtExp p (n + 1) % p ∨
    z = (p - (x ^ 2 ^ (n + 1) % p) ^ sqrtExp p (n + 1) % p) % p) : (z : ZMod p) = x ∨ (z : ZMod p) = -x := by
  have hr := root_mod (p := p) h3 x n
  have hlt : (x ^ 2 ^ (n + 1) % p) ^ sqrtExp p (n + 1) % p < p := Nat.mod_lt _ hp.out.pos
  rcases hz with rfl | rfl
  · exact hr
  · rw [ZMod.natCast_mod, Nat.cast_sub (Nat.le_of_lt hlt), ZMod.natCast_self, zero_sub]
    rcases hr with h | h
    · right; rw [h]
    · left; rw [h, neg_neg]

/-- One of the two roots is x itself. -/
theorem cand_hit (h3 : p % 4 = 3) (x n : Nat) : x % p = (x ^ 2 ^ (n + 1) % p) ^ sqrtExp p (n + 1) % p ∨
    x % p = (p - (x ^ 2 ^ (n + 1) % p) ^ sqrtExp p (n + 1) % p) % p := by
  have hr := root_mod (p := p) h3 x n
  have hlt : (x ^ 2 ^ (n + 1) % p) ^ sqrtExp p (n + 1) % p < p := Nat.mod_lt _ hp.out.pos
  rcases hr with h | h
  · left
    have := (ZMod.natCast_eq_natCast_iff' _ _ _).1 h
    rw [Nat.mod_eq_of_lt hlt] at this; exact this.symm
  · right
    generalize hz : (x ^ 2 ^ (n + 1) % p) ^ sqrtExp p (n + 1) % p = z at h hlt
    have : ((p - z : Nat) : ZMod p) = x := by
      rw [Nat.cast_sub (Nat.le_of_lt hlt), ZMod.natCast_self, zero_sub, h, neg_neg]
    exact ((ZMod.natCast_eq_natCast_iff' _ _ _).1 this).symm

/-- What the candidates of Recover are: the roots of x^(2^(n+1)) that agree with ±x modulo p and modulo q; x is one of them. -/
theorem candidates (hp3 : p % 4 = 3) (hq3 : q % 4 = 3) (hne : p ≠ q) (x n y : Nat) (hx : x < p * q) (hy : y = x ^ 2 ^ (n + 1) % (p * q)) :
    ∃ iq, modInverse q p = some iq ∧
    let x1p := (y % p) ^ sqrtExp p (n + 1) % p
    let x1q := (y % q) ^ sqrtExp q (n + 1) % q
    let x2p := (p - x1p) % p
    let x2q := (q - x1q) % q
    let xc := [crt p q iq x1p x1q, crt p q iq x1p x2q, crt p q iq x2p x1q, crt p q iq x2p x2q]
    x ∈ xc ∧ ∀ v ∈ xc, v < p * q ∧ ((v : ZMod p) = x ∨ (v : ZMod p) = -x) ∧ ((v : ZMod q) = x ∨ (v : ZMod q) = -x) := by
  have hcop : Nat.Coprime q p := (Nat.coprime_primes hq.out hp.out).2 (fun e => hne e.symm)
  obtain ⟨iq, hiq, hinv⟩ := modInverse_spec q p hp.out.one_lt hcop
  refine ⟨iq, hiq, ?_⟩
  have hyp : y % p = x ^ 2 ^ (n + 1) % p := by rw [hy, Nat.mod_mul_right_mod]
  have hyq : y % q = x ^ 2 ^ (n + 1) % q := by rw [hy, Nat.mul_comm, Nat.mod_mul_right_mod]
  dsimp only
  rw [hyp, hyq]
  have cp := cand_hit hp3 x n
  have cq := cand_hit hq3 x n
  have rp := cand_res hp3 x n
  have rq := cand_res hq3 x n
  have l1p : (x ^ 2 ^ (n + 1) % p) ^ sqrtExp p (n + 1) % p < p := Nat.mod_lt _ hp.out.pos
  have l1q : (x ^ 2 ^ (n + 1) % q) ^ sqrtExp q (n + 1) % q < q := Nat.mod_lt _ hq.out.pos
  generalize (x ^ 2 ^ (n + 1) % p) ^ sqrtExp p (n + 1) % p = z1p at *
  generalize (x ^ 2 ^ (n + 1) % q) ^ sqrtExp q (n + 1) % q = z1q at *
  have l2p : (p - z1p) % p < p := Nat.mod_lt _ hp.out.pos
  have l2q : (q - z1q) % q < q := Nat.mod_lt _ hq.out.pos
  have key : ∀ a b, a < p → b < q → x % p = a → x % q = b → x = crt p q iq a b := by
    intro a b ha hb e1 e2
    obtain ⟨c1, c2, c3⟩ := crt_spec p q iq a b hp.out.one_lt ha hb hinv
    have m1 : x ≡ crt p q iq a b [MOD p] := by show _ % _ = _ % _; rw [c2, e1]
    have m2 : x ≡ crt p q iq a b [MOD q] := by show _ % _ = _ % _; rw [c3, e2]
    have := (Nat.modEq_and_modEq_iff_modEq_mul hcop.symm).1 ⟨m1, m2⟩
    have h2 : x % (p * q) = crt p q iq a b % (p * q) := this
    rwa [Nat.mod_eq_of_lt hx, Nat.mod_eq_of_lt c1] at h2
  have prop : ∀ a b, a < p → b < q → (a = z1p ∨ a = (p - z1p) % p) → (b = z1q ∨ b = (q - z1q) % q) →
      crt p q iq a b < p * q ∧ ((crt p q iq a b : ZMod p) = x ∨ (crt p q iq a b : ZMod p) = -x) ∧ ((crt p q iq a b : ZMod q) = x ∨ (crt p q iq a b : ZMod q) = -x) := by
    intro a b ha hb oa ob
    obtain ⟨c1, c2, c3⟩ := crt_spec p q iq a b hp.out.one_lt ha hb hinv
    have e1 : (crt p q iq a b : ZMod p) = a := by
      apply (ZMod.natCast_eq_natCast_iff' _ _ _).2; rw [c2, Nat.mod_eq_of_lt ha]
    have e2 : (crt p q iq a b : ZMod q) = b := by
      apply (ZMod.natCast_eq_natCast_iff' _ _ _).2; rw [c3, Nat.mod_eq_of_lt hb]
    rw [e1, e2]
    exact ⟨c1, rp a oa, rq b ob⟩
  constructor
  · rcases cp with e1 | e1 <;> rcases cq with e2 | e2
    · rw [← key _ _ l1p l1q e1 e2]; simp
    · rw [← key _ _ l1p l2q e1 e2]; simp
    · rw [← key _ _ l2p l1q e1 e2]; simp
    · rw [← key _ _ l2p l2q e1 e2]; simp
  · intro v hv
    simp only [List.mem_cons, List.not_mem_nil, or_false] at hv
    rcases hv with rfl | rfl | rfl | rfl
    · exact prop _ _ l1p l1q (.inl rfl) (.inl rfl)
    · exact prop _ _ l1p l2q (.inl rfl) (.inr rfl)
    · exact prop _ _ l2p l1q (.inr rfl) (.inl rfl)
    · exact prop _ _ l2p l2q (.inr rfl) (.inr rfl)

/-- Every candidate raises to y. -/
theorem cand_pow (hne : p ≠ q) (x n v : Nat) (h1 : (v : ZMod p) = x ∨ (v : ZMod p) = -x) (h2 : (v : ZMod q) = x ∨ (v : ZMod q) = -x) :
    v ^ 2 ^ (n + 1) % (p * q) = x ^ 2 ^ (n + 1) % (p * q) := by
  have hcop : Nat.Coprime p q := (Nat.coprime_primes hp.out hq.out).2 hne
  have m1 : v ^ 2 ^ (n + 1) ≡ x ^ 2 ^ (n + 1) [MOD p] := root_pow x n v h1
  have m2 : v ^ 2 ^ (n + 1) ≡ x ^ 2 ^ (n + 1) [MOD q] := root_pow x n v h2
  exact (Nat.modEq_and_modEq_iff_modEq_mul hcop).1 ⟨m1, m2⟩

end recover

end Verif.Makwa
