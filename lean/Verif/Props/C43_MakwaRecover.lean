import Verif.Lemmas.MakwaRecover
import Mathlib.NumberTheory.LucasLehmer
/-
C43: Makwa password recovery with the private factors.
-/
namespace Verif.Props
open Verif.Makwa
open Verif.Spec (beNat beBytes)

/-- CheckPassword accepts the password a digest was made from, in every mode. -/
theorem C43_makwa_hash_check (P : Params) (pw salt : Bytes) (wf : Int) (pre : Bool) (post : Int) (d : Digest) (h : Hash P pw salt wf pre post = .ok d) :
    CheckPassword P d pw = .ok () := by
  obtain ⟨_, _, _, _, he⟩ := (Hash_ok P pw salt wf pre post d).1 h
  rw [check_ok]
  refine ⟨by rw [he], d, ?_, rfl⟩
  have : Hash P pw d.salt d.workFactor d.preHash d.postHashLen = Hash P pw salt wf pre post := by rw [he]
  rw [this, h]

/-- For all primes p ≠ q congruent 3 modulo 4 whose product has a length in bits that is a multiple of 8: Recover of any digest that Hash made without
pre- and post-hashing returns a password, and CheckPassword accepts that password.
Missing for the full property: moduli whose bit length is not a multiple of 8 (`C43_makwa_recover_violated`). -/
theorem C43_makwa_recover_partial (p q : Nat) (hp : p.Prime) (hq : q.Prime) (hne : p ≠ q) (hp3 : p % 4 = 3) (hq3 : q % 4 = 3)
    (A : Alg) (hA : A.Good) (hbits : bitLen (p * q) % 8 = 0) (pw salt : Bytes) (wf post : Int) (hwf : 0 ≤ wf) (hpost : post ≤ 0)
    (d : Digest) (h : Hash { N := p * q, A := A } pw salt wf false post = .ok d) :
    ∃ pw', Recover { N := p * q, A := A } p q d = .password pw' ∧ CheckPassword { N := p * q, A := A } d pw' = .ok () := by
  obtain ⟨hw, hk, hl1, hl2, he⟩ := (Hash_ok _ pw salt wf false post d).1 h
  have hin : ∀ pw, inner { N := p * q, A := A } false pw = pw := fun _ => rfl
  rw [hin] at hl1 hl2 he
  set P : Params := { N := p * q, A := A } with hP
  have hPA : P.A.Good := hA
  have : Fact p.Prime := ⟨hp⟩
  have : Fact q.Prime := ⟨hq⟩
  have hN : P.N = p * q := rfl
  have hml : modLen P.N = bitLen P.N / 8 := by unfold modLen; rw [hN]; omega
  have hxlt := block_lt P.A hPA P.N salt pw (by omega)
  have hxl := block_length P.A hPA (bitLen P.N / 8) salt pw (by omega)
  generalize hx : beNat (block P.A (bitLen P.N / 8) salt pw) = x at hxlt he
  have hsq : squares P.N (wf + 1).toNat x = x ^ 2 ^ (wf.toNat + 1) % (p * q) := by
    rw [squares_pos P.N _ _ (by omega) hxlt, show (wf + 1).toNat = wf.toNat + 1 by omega, hN]
  have hylt : squares P.N (wf + 1).toNat x < P.N := squares_lt _ _ _ (by omega) hxlt
  have hhash : d.hash = pad P.N (squares P.N (wf + 1).toNat x) := by rw [he]; dsimp only; rw [if_neg (by omega)]
  have hy : beNat d.hash = x ^ 2 ^ (wf.toNat + 1) % (p * q) := by rw [hhash, beNat_pad _ _ hylt, hsq]
  have dpre : d.preHash = false := by rw [he]
  have dpost : d.postHashLen = post := by rw [he]
  have dmod : d.modulusID = P.modulusID := by rw [he]
  have dsalt : d.salt = salt := by rw [he]
  have dwf : d.workFactor = wf := by rw [he]
  obtain ⟨iq, hiq, hmem, hall⟩ := candidates hp3 hq3 hne x wf.toNat _ hxlt hy
  have hhit : tryRoot P salt x = some pw := by
    apply tryRoot_block P hPA salt pw x (bitLen P.N / 8) _ hl1 hl2
    rw [pad_eq P.N x hxlt, hml, ← hx]
    conv_lhs => rw [← hxl]
    rw [show beNat (block P.A (block P.A (bitLen P.N / 8) salt pw).length salt pw) = beNat (block P.A (bitLen P.N / 8) salt pw) by rw [hxl]]
    exact Spec.beBytes_beNat _
  unfold Recover
  rw [if_neg (by rw [dpre, dpost]; simp; omega), if_neg (by rw [dmod]; simp), hiq]
  dsimp only
  rw [dwf, dsalt, show (wf + 1).toNat = wf.toNat + 1 by omega]
  generalize [crt p q iq _ _, crt p q iq _ _, crt p q iq _ _, crt p q iq _ _] = xc at hmem hall ⊢
  cases hf : xc.findSome? (tryRoot P salt) with
  | none =>
    rw [List.findSome?_eq_none_iff] at hf
    have := hf x hmem
    rw [hhit] at this; simp at this
  | some pw' =>
    refine ⟨pw', rfl, ?_⟩
    obtain ⟨v, hv, hr⟩ := List.exists_of_findSome?_eq_some hf
    obtain ⟨hvlt, hv1, hv2⟩ := hall v hv
    obtain ⟨hb, b1, b2⟩ := tryRoot_some P salt v pw' hr
    have hplen : (pad P.N v).length = bitLen P.N / 8 := by rw [pad_eq P.N v hvlt, Spec.beBytes_length, hml]
    rw [hplen] at hb b2
    have hbv : beNat (block P.A (bitLen P.N / 8) salt pw') = v := by rw [← hb, beNat_pad _ _ hvlt]
    rw [check_ok]
    refine ⟨dmod, _, (Hash_ok P pw' d.salt d.workFactor d.preHash d.postHashLen _).2 ⟨by rw [dwf]; exact hw, hk, ?_, ?_, rfl⟩, ?_⟩
    · rw [dpre, hin]; exact b1
    · rw [dpre, hin]; exact b2
    · dsimp only
      rw [dpre, dpost, dsalt, dwf, hin, if_neg (by omega), hbv, hhash, hsq, squares_pos P.N _ _ (by omega) hvlt, show (wf + 1).toNat = wf.toNat + 1 by omega,
        hN, cand_pow hne x wf.toNat v hv1 hv2]

/-- Recover fails when no root of the hash passes its test. -/
theorem recover_fails (p q : Nat) (hp : p.Prime) (hq : q.Prime) (hne : p ≠ q) (hp3 : p % 4 = 3) (hq3 : q % 4 = 3)
    (A : Alg) (hA : A.Good) (pw salt : Bytes) (wf post : Int) (hwf : 0 ≤ wf) (hpost : post ≤ 0) (x : Nat) (hx : x = beNat (block A (bitLen (p * q) / 8) salt pw))
    (d : Digest) (h : Hash { N := p * q, A := A } pw salt wf false post = .ok d)
    (hall' : ∀ v, v < p * q → ((v : ZMod p) = x ∨ (v : ZMod p) = -x) → ((v : ZMod q) = x ∨ (v : ZMod q) = -x) → tryRoot { N := p * q, A := A } salt v = none) :
    Recover { N := p * q, A := A } p q d = .error .other := by
  obtain ⟨hw, hk, hl1, hl2, he⟩ := (Hash_ok _ pw salt wf false post d).1 h
  have hin : ∀ pw, inner { N := p * q, A := A } false pw = pw := fun _ => rfl
  rw [hin] at hl1 hl2 he
  set P : Params := { N := p * q, A := A } with hP
  have hPA : P.A.Good := hA
  have : Fact p.Prime := ⟨hp⟩
  have : Fact q.Prime := ⟨hq⟩
  have hN : P.N = p * q := rfl
  have hxlt := block_lt P.A hPA P.N salt pw (by omega)
  have hx' : beNat (block P.A (bitLen P.N / 8) salt pw) = x := hx.symm
  rw [hx'] at hxlt he
  have hsq : squares P.N (wf + 1).toNat x = x ^ 2 ^ (wf.toNat + 1) % (p * q) := by
    rw [squares_pos P.N _ _ (by omega) hxlt, show (wf + 1).toNat = wf.toNat + 1 by omega, hN]
  have hylt : squares P.N (wf + 1).toNat x < P.N := squares_lt _ _ _ (by omega) hxlt
  have hhash : d.hash = pad P.N (squares P.N (wf + 1).toNat x) := by rw [he]; dsimp only; rw [if_neg (by omega)]
  have hy : beNat d.hash = x ^ 2 ^ (wf.toNat + 1) % (p * q) := by rw [hhash, beNat_pad _ _ hylt, hsq]
  have dpre : d.preHash = false := by rw [he]
  have dpost : d.postHashLen = post := by rw [he]
  have dmod : d.modulusID = P.modulusID := by rw [he]
  have dsalt : d.salt = salt := by rw [he]
  have dwf : d.workFactor = wf := by rw [he]
  obtain ⟨iq, hiq, hmem, hall⟩ := candidates hp3 hq3 hne x wf.toNat _ hxlt hy
  unfold Recover
  rw [if_neg (by rw [dpre, dpost]; simp; omega), if_neg (by rw [dmod]; simp), hiq]
  dsimp only
  rw [dwf, dsalt, show (wf + 1).toNat = wf.toNat + 1 by omega]
  generalize [crt p q iq _ _, crt p q iq _ _, crt p q iq _ _, crt p q iq _ _] = xc at hmem hall ⊢
  have : xc.findSome? (tryRoot P salt) = none := by
    rw [List.findSome?_eq_none_iff]
    intro v hv
    obtain ⟨hvlt, hv1, hv2⟩ := hall v hv
    exact hall' v hvlt hv1 hv2
  rw [this]

/-! ## The violation: a modulus of 1886 bits -/

/-- A stand-in for HMAC with one-byte outputs. -/
def toyMac : Alg := { mac := fun _ _ => [1], size := 1 }
theorem toyMac_good : toyMac.Good := ⟨by decide, by intro k m; rfl⟩
set_option exponentiation.threshold 4000
set_option maxRecDepth 20000
theorem prime607 : (mersenne 607).Prime := lucas_lehmer_sufficiency _ (by norm_num) (by norm_num)
theorem prime1279 : (mersenne 1279).Prime := lucas_lehmer_sufficiency _ (by norm_num) (by norm_num)
def toyP : Nat := 2 ^ 607 - 1
def toyQ : Nat := 2 ^ 1279 - 1
def toy : Params := { N := toyP * toyQ, A := toyMac }
/-- The third square root, modulo p and q, of the square of the padded block of the password "pw". -/
def toyC : Nat := 446372761330056817048506488703012274465609134185469407123631549545359169437869382067553905142301301400690862840151017345975726858590067611868618009997051564677945422634773937064588391795828498001400623824587964475185356648016786749662873873917193497262529835492064065295597351183183562369957332276745984733356452017925271640288870320877382195123029044310405967196535511208157143390889496358123083537440453705636935562900261634784493161520280603251512512162602764367951720812724736092145473009712801897281659792615470470952139874702279509917910092733590390229268911873
/-- The padded password "pw". -/
def toyX : Nat := beNat (block toyMac 235 [] [0x70, 0x77])

theorem toy_roots (v : Nat) (hv : v < toyP * toyQ) (h1 : (v : ZMod toyP) = toyX ∨ (v : ZMod toyP) = -toyX) (h2 : (v : ZMod toyQ) = toyX ∨ (v : ZMod toyQ) = -toyX) :
    v = toyX ∨ v = toyP * toyQ - toyX ∨ v = toyC ∨ v = toyP * toyQ - toyC := by
  have hcop : Nat.Coprime toyP toyQ := by decide +kernel
  have neg : ∀ m x z : Nat, z ≤ m → z % m = x % m → (v : ZMod m) = -x → v % m = (m - z) % m := by
    intro m x z hz hzx h
    have : (v : ZMod m) = ((m - z : Nat) : ZMod m) := by
      rw [h, Nat.cast_sub hz, ZMod.natCast_self, zero_sub, (ZMod.natCast_eq_natCast_iff' z x m).2 hzx]
    exact (ZMod.natCast_eq_natCast_iff' _ _ _).1 this
  have pos : ∀ m x : Nat, (v : ZMod m) = x → v % m = x % m := fun m x h => (ZMod.natCast_eq_natCast_iff' _ _ _).1 h
  have fin : ∀ r, r < toyP * toyQ → v % toyP = r % toyP → v % toyQ = r % toyQ → v = r := by
    intro r hr e1 e2
    have h : v % (toyP * toyQ) = r % (toyP * toyQ) := (Nat.modEq_and_modEq_iff_modEq_mul hcop).1 ⟨e1, e2⟩
    rwa [Nat.mod_eq_of_lt hv, Nat.mod_eq_of_lt hr] at h
  have np := neg toyP toyX (toyX % toyP) (by decide +kernel) (by decide +kernel)
  have nq := neg toyQ toyX (toyX % toyQ) (by decide +kernel) (by decide +kernel)
  rcases h1 with h1 | h1 <;> rcases h2 with h2 | h2
  · left; exact fin _ (by decide +kernel) (pos _ _ h1) (pos _ _ h2)
  · right; right; left
    exact fin _ (by decide +kernel) ((pos _ _ h1).trans (by decide +kernel)) ((nq h2).trans (by decide +kernel))
  · right; right; right
    exact fin _ (by decide +kernel) ((np h1).trans (by decide +kernel)) ((pos _ _ h2).trans (by decide +kernel))
  · right; left
    exact fin _ (by decide +kernel) ((np h1).trans (by decide +kernel)) ((nq h2).trans (by decide +kernel))

theorem toy_fail : tryRoot toy [] toyX = none ∧ tryRoot toy [] (toyP * toyQ - toyX) = none ∧ tryRoot toy [] toyC = none ∧ tryRoot toy [] (toyP * toyQ - toyC) = none := by
  have hml : modLen (toyP * toyQ) = 236 := by decide +kernel
  have go : ∀ v, v < toyP * toyQ → (at8 (beBytes 236 v) 0 ≠ 0 ∨ at8 (beBytes 236 v) 1 = 0 ∧ (at8 (beBytes 236 v) 235).toNat = 2) → tryRoot toy [] v = none := by
    intro v hv h
    unfold tryRoot
    dsimp only
    rw [show pad toy.N v = beBytes 236 v by rw [← hml]; exact pad_eq _ _ hv, Spec.beBytes_length]
    by_cases h0 : at8 (beBytes 236 v) 0 ≠ 0
    · rw [if_pos h0]
    · rw [if_neg h0]
      obtain ⟨h1, h2⟩ := h.resolve_left h0
      rw [show 236 - 1 = 235 from rfl, h2, if_neg (by decide), if_neg]
      intro hc
      have h1' : at8 ([0x00] ++ kdf toy.A ([] ++ List.take 2 (List.drop (236 - 2 - 1) (beBytes 236 v)) ++ [BitVec.ofNat 8 2]) (236 - 2 - 2) ++ List.take 2 (List.drop (236 - 2 - 1) (beBytes 236 v)) ++ [BitVec.ofNat 8 2]) 1 = 0 := by rw [hc]; exact h1
      have hk : ∀ data, kdf toy.A data (236 - 2 - 2) = List.replicate 232 1 := fun data => (show kdf toy.A data (236 - 2 - 2) = kdf toy.A [] (236 - 2 - 2) from rfl).trans (by decide +kernel)
      rw [hk] at h1'
      revert h1'
      rw [List.append_assoc]
      have : at8 ([(0x00 : Byte)] ++ List.replicate 232 1 ++ (List.take 2 (List.drop (236 - 2 - 1) (beBytes 236 v)) ++ [BitVec.ofNat 8 2])) 1 = 1 := rfl
      rw [this]
      decide
  exact ⟨go _ (by decide +kernel) (by decide +kernel), go _ (by decide +kernel) (by decide +kernel), go _ (by decide +kernel) (by decide +kernel), go _ (by decide +kernel) (by decide +kernel)⟩

theorem toyX_eq : toyX = beNat (block toyMac (bitLen (toyP * toyQ) / 8) [] [0x70, 0x77]) := by
  rw [show bitLen (toyP * toyQ) / 8 = 235 by decide +kernel, toyX]
theorem hash_succeeds (P : Params) (pw salt : Bytes) (wf post : Int) (h1 : (wfMant (u32 wf)).isSome = true) (h2 : 160 ≤ bitLen P.N / 8) (h3 : pw.length ≤ 128) :
    ∃ d, Hash P pw salt wf false post = .ok d :=
  ⟨_, (Hash_ok P pw salt wf false post _).2 ⟨h1, h2, by show pw.length ≤ 255; omega, by show pw.length + 32 ≤ _; omega, rfl⟩⟩
theorem toy_hash : ∃ d, Hash toy [0x70, 0x77] [] 2 false 0 = .ok d := hash_succeeds toy _ _ _ _ (by decide +kernel) (by decide +kernel) (by decide)

/-- Two primes congruent 3 modulo 4 (with a product of 1886 bits) and a password for which Hash succeeds but Recover fails. -/
theorem C43_makwa_recover_violated : toyP.Prime ∧ toyQ.Prime ∧ toyP ≠ toyQ ∧ toyP % 4 = 3 ∧ toyQ % 4 = 3 ∧ toy.N = toyP * toyQ ∧ toy.A.Good ∧
    ∃ d, Hash toy [0x70, 0x77] [] 2 false 0 = .ok d ∧ Recover toy toyP toyQ d = .error .other := by
  have hne : toyP ≠ toyQ := by decide +kernel
  have hp3 : toyP % 4 = 3 := by decide +kernel
  have hq3 : toyQ % 4 = 3 := by decide +kernel
  refine ⟨prime607, prime1279, hne, hp3, hq3, rfl, toyMac_good, ?_⟩
  obtain ⟨d, hd⟩ := toy_hash
  refine ⟨d, hd, ?_⟩
  refine recover_fails toyP toyQ prime607 prime1279 hne hp3 hq3 toyMac toyMac_good [0x70, 0x77] [] 2 0 (by decide) (by decide) toyX toyX_eq d hd ?_
  intro v hvlt hv1 hv2
  obtain ⟨f1, f2, f3, f4⟩ := toy_fail
  rcases toy_roots v hvlt hv1 hv2 with e | e | e | e
  · rw [e]; exact f1
  · rw [e]; exact f2
  · rw [e]; exact f3
  · rw [e]; exact f4

/-! Non-vacuity of `C43_makwa_recover_partial`: 2^521 - 1 and 2^1279 - 1. -/
theorem prime521 : (mersenne 521).Prime := lucas_lehmer_sufficiency _ (by norm_num) (by norm_num)
def toyR : Nat := 2 ^ 521 - 1
theorem C43_makwa_recover_example : toyR.Prime ∧ toyQ.Prime ∧ toyR ≠ toyQ ∧ toyR % 4 = 3 ∧ toyQ % 4 = 3 ∧ bitLen (toyR * toyQ) % 8 = 0 ∧
    ∃ d, Hash { N := toyR * toyQ, A := toyMac } [0x70, 0x77] [] 2 false 0 = .ok d := by
  refine ⟨prime521, prime1279, by decide +kernel, by decide +kernel, by decide +kernel, by decide +kernel, hash_succeeds _ _ _ _ _ (by decide +kernel) (by decide +kernel) (by decide)⟩

end Verif.Props
