import Verif.Lemmas.MakwaExtend
/-
C44: raising the work factor of a Makwa digest.
-/
namespace Verif.Props
open Verif.Makwa
open Verif.Spec (beNat beBytes)

/-- Extending a digest d of the password pw from work factor w to w' ≥ w, against hashing pw with w' (digest d''): Extend succeeds, keeps every field but the hash
and the work factor, and its hash is the same number as the hash of d''.  CheckPassword accepts pw for the extended digest, and the extended digest is d'',
exactly when the hash of d'' does not begin with a zero byte; otherwise CheckPassword answers "bad password".
Missing for the full property: the hashes that begin with a zero byte (`C44_makwa_extend_violated`). -/
theorem C44_makwa_extend_partial (P : Params) (hA : P.A.Good) (pw salt : Bytes) (w w' : Int) (hw : 0 ≤ w) (hww : w ≤ w') (pre : Bool) (post : Int) (hpost : post ≤ 0)
    (d d'' : Digest) (h : Hash P pw salt w pre post = .ok d) (h'' : Hash P pw salt w' pre post = .ok d'') :
    ∃ d', Extend P d w' = .ok d' ∧ beNat d'.hash = beNat d''.hash ∧ { d' with hash := d''.hash } = d'' ∧
      (d' = d'' ↔ d''.hash.head? ≠ some 0) ∧
      CheckPassword P d' pw = if d''.hash.head? ≠ some 0 then .ok () else .error .badPassword := by
  obtain ⟨_, _, _, hl, he⟩ := (Hash_ok P pw salt w pre post d).1 h
  obtain ⟨_, _, _, _, he''⟩ := (Hash_ok P pw salt w' pre post d'').1 h''
  have hxlt := block_lt P.A hA P.N salt (inner P pre pw) (by omega)
  generalize beNat (block P.A (bitLen P.N / 8) salt (inner P pre pw)) = x at hxlt he he''
  have hN : 0 < P.N := by omega
  have hy : squares P.N (w + 1).toNat x < P.N := squares_lt _ _ _ hN hxlt
  have hy'' : squares P.N (w' + 1).toNat x < P.N := squares_lt _ _ _ hN hxlt
  have hd : d.hash = pad P.N (squares P.N (w + 1).toNat x) := by rw [he]; dsimp only; rw [if_neg (by omega)]
  have hd'' : d''.hash = pad P.N (squares P.N (w' + 1).toNat x) := by rw [he'']; dsimp only; rw [if_neg (by omega)]
  have hsq : squares P.N (w' - w).toNat (beNat d.hash) = squares P.N (w' + 1).toNat x := by
    rw [hd, beNat_pad _ _ hy, squares_add]; congr 1; omega
  have dmod : d.modulusID = P.modulusID := by rw [he]
  have dpost : d.postHashLen = post := by rw [he]
  have dwf : d.workFactor = w := by rw [he]
  have dsalt : d.salt = salt := by rw [he]
  have dpre : d.preHash = pre := by rw [he]
  have hmp : 0 < modLen P.N := by unfold modLen; omega
  have hbe := lt_modLen P.N _ hy''
  have hiff := bytes_eq_beBytes (modLen P.N) _ hmp hbe
  rw [← pad_eq P.N _ hy'', ← hd''] at hiff
  have hE : Extend P d w' = .ok { d with hash := Big.bytes (squares P.N (w' + 1).toNat x), workFactor := w' } := by
    unfold Extend
    rw [if_neg (by rw [dmod]; simp), if_neg (by rw [dpost]; omega), dwf, hsq]
  have hrec : ∀ b, { d with hash := b, workFactor := w' } = ({ d'' with hash := b } : Digest) := by
    intro b; rw [he, he'']
  have hC : ∀ b, CheckPassword P { d with hash := b, workFactor := w' } pw = if b ≠ d''.hash then .error .badPassword else .ok () := by
    intro b
    unfold CheckPassword
    dsimp only
    rw [if_neg (by rw [dmod]; simp), dsalt, dpre, dpost, h'']
  refine ⟨_, hE, ?_, ?_, ?_, ?_⟩
  · rw [Big.beNat_bytes, hd'', beNat_pad _ _ hy'']
  · rw [hrec]
  · rw [hrec]; refine Iff.trans ?_ hiff
    constructor
    · intro e; exact congrArg Digest.hash e
    · intro e; rw [e]
  · rw [hC]
    by_cases hh : d''.hash.head? ≠ some 0
    · rw [if_pos hh, if_neg (not_not.2 (hiff.2 hh))]
    · rw [if_neg hh, if_pos (fun e => hh (hiff.1 e))]

/-- Extend never validates the target: for a work factor that Hash refuses, it succeeds, and CheckPassword then rejects every password. -/
theorem C44_makwa_target_violated (P : Params) (d : Digest) (w' : Int) (hm : d.modulusID = P.modulusID) (hpost : d.postHashLen ≤ 0) (hw : wfMant (u32 w') = none) :
    ∃ d', Extend P d w' = .ok d' ∧ ∀ pw, CheckPassword P d' pw = .error .invalidWorkFactor := by
  refine ⟨_, by unfold Extend; rw [if_neg (by rw [hm]; simp), if_neg (by omega)], ?_⟩
  intro pw
  unfold CheckPassword Hash
  dsimp only
  rw [if_neg (by rw [hm]; simp), hw]

/-- A lower target changes nothing but the label: the hash is still that of the old work factor. -/
theorem C44_makwa_lower (P : Params) (d : Digest) (w' : Int) (hm : d.modulusID = P.modulusID) (hpost : d.postHashLen ≤ 0) (hw : w' ≤ d.workFactor) :
    ∃ d', Extend P d w' = .ok d' ∧ d'.workFactor = w' ∧ beNat d'.hash = beNat d.hash := by
  refine ⟨_, by unfold Extend; rw [if_neg (by rw [hm]; simp), if_neg (by omega)], rfl, ?_⟩
  dsimp only
  rw [Big.beNat_bytes, show (w' - d.workFactor).toNat = 0 by omega]
  rfl

/-! ## A password whose extended digest is rejected -/
def toyHMAC : Alg := { mac := fun _ _ => [1], size := 1 }
theorem toyHMAC_good : toyHMAC.Good := ⟨by decide, by intro k m; rfl⟩
/-- The product of the primes 2^607 - 1 and 2^1279 - 1, both congruent 3 modulo 4. -/
def toyModulus : Params := { N := (2 ^ 607 - 1) * (2 ^ 1279 - 1), A := toyHMAC }

set_option maxRecDepth 20000 in
set_option exponentiation.threshold 4000 in
/-- Hash with work factor 2, Extend to 3, CheckPassword: "bad password" for the right password. -/
theorem C44_makwa_extend_violated : ∃ d d', Hash toyModulus [0x04] [] 2 false 0 = .ok d ∧ Extend toyModulus d 3 = .ok d' ∧
    CheckPassword toyModulus d' [0x04] = .error .badPassword := by
  have hk : bitLen toyModulus.N / 8 = 235 := by decide +kernel
  have w3 : (wfMant (u32 3)).isSome = true := by decide +kernel
  have h := (Hash_ok toyModulus [0x04] [] 2 false 0 _).2 ⟨by decide +kernel, by rw [hk]; decide, by decide, by rw [hk]; decide, rfl⟩
  have h'' := (Hash_ok toyModulus [0x04] [] 3 false 0 _).2 ⟨w3, by rw [hk]; decide, by decide, by rw [hk]; decide, rfl⟩
  obtain ⟨d', e1, _, _, _, e5⟩ := C44_makwa_extend_partial toyModulus toyHMAC_good [0x04] [] 2 3 (by decide) (by decide) false 0 (by decide) _ _ h h''
  refine ⟨_, d', h, e1, ?_⟩
  rw [e5]
  apply if_neg
  rw [not_not]
  dsimp only
  rw [if_neg (by decide), hk, show inner toyModulus false [0x04] = [0x04] from rfl]
  have hlt : squares toyModulus.N ((3 : Int) + 1).toNat (beNat (block toyModulus.A 235 [] [0x04])) < toyModulus.N := by decide +kernel
  rw [pad_eq _ _ hlt, show modLen toyModulus.N = 236 by decide +kernel]
  decide +kernel

end Verif.Props
