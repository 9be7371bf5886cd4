import Verif.Model.MakwaMem
import Verif.Lemmas.GoSlice
import Verif.Lemmas.MakwaRecover
import Verif.Lemmas.MakwaText
import Verif.Props.C43_MakwaRecover
/-
C148: what makwa.Hash does to the caller's memory.  C149: makwa with one digest, from several goroutines.
-/
namespace Verif.Props
open Verif.Makwa Verif.MakwaMem Verif.GoSlice
open Verif.Spec (beNat)

/-- The part of the memory behind the salt, up to its capacity, has nothing of the password. -/
def C148.Apart (salt : Slice) : Buf → Prop
  | .own _ => True
  | .ref s => s.off + s.len ≤ salt.off + salt.len ∨ salt.off + salt.cap ≤ s.off

/-- The two appends of line 167: the contents are right, and only the memory between the end of the salt and its capacity changes. -/
theorem C148.appends (mem : Bytes) (salt : Slice) (pw : Bytes) (c : Byte) (hv : salt.Valid mem) :
    let r₁ := GoSlice.append mem (.ref salt) pw
    let r₂ := GoSlice.append r₁.1 r₁.2 [c]
    r₂.2.get r₂.1 = salt.get mem ++ pw ++ [c] ∧ r₂.1.length = mem.length ∧
    (∀ i, i < salt.off + salt.len ∨ salt.off + salt.len + pw.length + 1 ≤ i ∨ salt.off + salt.cap ≤ i → r₂.1[i]? = mem[i]?) ∧
    (salt.cap < salt.len + pw.length → r₂.1 = mem) ∧
    (salt.len + pw.length ≤ salt.cap → (r₂.1.drop (salt.off + salt.len)).take pw.length = pw) := by
  intro r₁ r₂
  obtain ⟨hv1, hv2⟩ := hv
  by_cases h1 : salt.len + pw.length ≤ salt.cap
  · have e1 : r₁ = (goCopy mem (salt.off + salt.len) pw, .ref { salt with len := salt.len + pw.length }) := if_pos h1
    have hl : (goCopy mem (salt.off + salt.len) pw).length = mem.length := GoSlice.copy_length _ _ _ (by omega)
    have hg := GoSlice.grow_get salt mem pw (by omega)
    have hleak : ∀ m' : Bytes, (∀ i, i < salt.off + salt.len + pw.length → m'[i]? = (goCopy mem (salt.off + salt.len) pw)[i]?) →
        (m'.drop (salt.off + salt.len)).take pw.length = pw := by
      intro m' hm'
      apply List.ext_getElem?
      intro i
      rw [List.getElem?_take]
      by_cases hi : i < pw.length
      · rw [if_pos hi, List.getElem?_drop, hm' _ (by omega), GoSlice.copy_get _ _ _ _ (by omega), if_neg (by omega), if_pos (by omega)]
        congr 1; omega
      · rw [if_neg hi, List.getElem?_eq_none (by omega)]
    by_cases h2 : salt.len + pw.length + 1 ≤ salt.cap
    · have e2 : r₂ = (goCopy (goCopy mem (salt.off + salt.len) pw) (salt.off + (salt.len + pw.length)) [c],
          .ref { salt with len := salt.len + pw.length + 1 }) := by
        show GoSlice.append r₁.1 r₁.2 [c] = _
        rw [e1]
        exact if_pos h2
      rw [e2]
      dsimp only
      refine ⟨?_, ?_, ?_, fun h => by omega, fun _ => hleak _ fun i hi => ?_⟩
      · rw [← hg]
        exact GoSlice.grow_get { salt with len := salt.len + pw.length } _ [c] (by dsimp only [List.length_singleton]; rw [hl]; show _ + 1 ≤ _; omega)
      · rw [GoSlice.copy_length _ _ _ (by rw [hl]; show _ + 1 ≤ _; omega), hl]
      · intro i hi
        rw [GoSlice.copy_get _ _ _ _ (by rw [hl]; show _ + 1 ≤ _; omega), GoSlice.copy_get _ _ _ _ (by omega)]
        simp only [List.length_singleton]
        rcases hi with hi | hi | hi
        · rw [if_pos (by omega), if_pos hi]
        · rw [if_neg (by omega), if_neg (by omega), if_neg (by omega), if_neg (by omega)]
        · rw [if_neg (by omega), if_neg (by omega), if_neg (by omega), if_neg (by omega)]
      · rw [GoSlice.copy_get _ _ _ _ (by rw [hl]; show _ + 1 ≤ _; omega), if_pos (by omega)]
    · have e2 : r₂ = (goCopy mem (salt.off + salt.len) pw, .own (salt.get mem ++ pw ++ [c])) := by
        show GoSlice.append r₁.1 r₁.2 [c] = _
        rw [e1, ← hg]
        exact if_neg h2
      rw [e2]
      dsimp only
      refine ⟨rfl, hl, ?_, fun h => by omega, fun _ => hleak _ fun i hi => rfl⟩
      intro i hi
      rw [GoSlice.copy_get _ _ _ _ (by omega)]
      rcases hi with hi | hi | hi
      · rw [if_pos hi]
      · rw [if_neg (by omega), if_neg (by omega)]
      · rw [if_neg (by omega), if_neg (by omega)]
  · have e1 : r₁ = (mem, .own (salt.get mem ++ pw)) := if_neg h1
    have e2 : r₂ = (mem, .own (salt.get mem ++ pw ++ [c])) := by
      show GoSlice.append r₁.1 r₁.2 [c] = _
      rw [e1]; rfl
    rw [e2]
    exact ⟨rfl, rfl, fun i _ => rfl, fun _ => rfl, fun h => absurd h h1⟩

/-- The value model (C43, C44, C96), in the terms of this one. -/
theorem C148.hash_value (P : Params) (pw salt : Bytes) (wf : Int) (pre : Bool) (post : Int) :
    Hash P pw salt wf pre post = match refused P wf (Makwa.inner P pre pw).length with
      | some e => .error e
      | none => .ok (MakwaMem.finish P (salt ++ Makwa.inner P pre pw ++ [BitVec.ofNat 8 (Makwa.inner P pre pw).length]) (Makwa.inner P pre pw) salt
          (Makwa.inner P pre pw).length wf pre post) := by
  unfold Hash refused
  cases wfMant (u32 wf) with
  | none => rfl
  | some r =>
    dsimp only
    by_cases h1 : bitLen P.N / 8 < 160
    · rw [if_pos h1, if_pos h1]
    · rw [if_neg h1, if_neg h1]
      have hi : (if pre = true then kdf P.A pw 64 else pw) = Makwa.inner P pre pw := rfl
      rw [hi]
      by_cases h2 : (Makwa.inner P pre pw).length > 255 ∨ ((Makwa.inner P pre pw).length : Int) > ((bitLen P.N / 8 : Nat) : Int) - 32
      · rw [if_pos h2, if_pos h2]
      · rw [if_neg h2, if_neg h2]
        unfold block MakwaMem.finish
        rfl

theorem C148.entered_get (P : Params) (pre : Bool) (mem : Bytes) (pw : Buf) :
    (entered P pre mem pw).get mem = Makwa.inner P pre (pw.get mem) := by
  unfold entered Makwa.inner
  cases pre <;> rfl

/-- The property one would expect, "Hash computes the digest of the password and the salt given to it", holds when the password is not
stored in the memory between the end of the salt and its capacity (a pre-hashed password may be). -/
theorem C148_result_partial (P : Params) (mem : Bytes) (pw : Buf) (salt : Slice) (wf : Int) (pre : Bool) (post : Int)
    (hv : salt.Valid mem) (ha : pre = true ∨ C148.Apart salt pw) :
    (MakwaMem.hash P mem pw salt wf pre post).2 = Hash P (pw.get mem) (salt.get mem) wf pre post := by
  rw [C148.hash_value]
  unfold MakwaMem.hash
  dsimp only
  rw [C148.entered_get]
  cases refused P wf (Makwa.inner P pre (pw.get mem)).length with
  | some e => rfl
  | none =>
    dsimp only
    obtain ⟨h1, _, h3, _, _⟩ := C148.appends mem salt (Makwa.inner P pre (pw.get mem)) (BitVec.ofNat 8 (Makwa.inner P pre (pw.get mem)).length) hv
    have hs : salt.get (GoSlice.append (GoSlice.append mem (.ref salt) (Makwa.inner P pre (pw.get mem))).1
        (GoSlice.append mem (.ref salt) (Makwa.inner P pre (pw.get mem))).2 [BitVec.ofNat 8 (Makwa.inner P pre (pw.get mem)).length]).1 = salt.get mem :=
      GoSlice.slice_congr _ _ _ fun i _ hi => h3 i (.inl hi)
    have hp : (entered P pre mem pw).get (GoSlice.append (GoSlice.append mem (.ref salt) (Makwa.inner P pre (pw.get mem))).1
        (GoSlice.append mem (.ref salt) (Makwa.inner P pre (pw.get mem))).2 [BitVec.ofNat 8 (Makwa.inner P pre (pw.get mem)).length]).1 =
        Makwa.inner P pre (pw.get mem) := by
      rw [← C148.entered_get]
      cases hpre : pre with
      | true => rfl
      | false =>
        show pw.get _ = pw.get _
        cases pw with
        | own b => rfl
        | ref s =>
          have ha' : C148.Apart salt (.ref s) := by
            rcases ha with ha | ha
            · rw [hpre] at ha; cases ha
            · exact ha
          rw [hpre] at h3
          refine GoSlice.slice_congr _ _ _ fun i hi1 hi2 => h3 i ?_
          rcases ha' with ha' | ha'
          · exact .inl (by omega)
          · exact .inr (.inr (by omega))
    rw [h1, hs, hp]

/-- Hash writes nowhere but between the end of the salt and its capacity, and there only if the password fits; the salt keeps its
contents. -/
theorem C148_memory_partial (P : Params) (mem : Bytes) (pw : Buf) (salt : Slice) (wf : Int) (pre : Bool) (post : Int)
    (hv : salt.Valid mem) :
    let mem' := (MakwaMem.hash P mem pw salt wf pre post).1
    mem'.length = mem.length ∧
    (∀ i, i < salt.off + salt.len ∨ salt.off + salt.cap ≤ i → mem'[i]? = mem[i]?) ∧
    salt.get mem' = salt.get mem ∧
    (salt.cap < salt.len + ((entered P pre mem pw).get mem).length → mem' = mem) := by
  intro mem'
  obtain ⟨_, h2, h3, h4, _⟩ := C148.appends mem salt ((entered P pre mem pw).get mem)
    (BitVec.ofNat 8 ((entered P pre mem pw).get mem).length) hv
  have key : mem' = mem ∨ mem' = (GoSlice.append (GoSlice.append mem (.ref salt) ((entered P pre mem pw).get mem)).1
      (GoSlice.append mem (.ref salt) ((entered P pre mem pw).get mem)).2
      [BitVec.ofNat 8 ((entered P pre mem pw).get mem).length]).1 := by
    show (MakwaMem.hash P mem pw salt wf pre post).1 = mem ∨ (MakwaMem.hash P mem pw salt wf pre post).1 = _
    unfold MakwaMem.hash
    dsimp only
    cases refused P wf ((entered P pre mem pw).get mem).length with
    | some e => exact .inl rfl
    | none => exact .inr rfl
  rcases key with e | e
  · rw [e]; exact ⟨rfl, fun i _ => rfl, rfl, fun _ => rfl⟩
  · rw [e]
    refine ⟨h2, fun i hi => h3 i (by omega), GoSlice.slice_congr _ _ _ fun i _ hi => h3 i (.inl hi), h4⟩

/-- "Hash leaves the caller's memory alone" fails: whenever Hash succeeds and the salt has spare capacity for the password, the password
(or its pre-hash, from which every digest can be computed) is in the caller's memory behind the salt afterwards. -/
theorem C148_leak_violated (P : Params) (mem : Bytes) (pw : Buf) (salt : Slice) (wf : Int) (pre : Bool) (post : Int)
    (hv : salt.Valid mem) (d : Digest) (hd : (MakwaMem.hash P mem pw salt wf pre post).2 = .ok d)
    (hc : salt.len + (Makwa.inner P pre (pw.get mem)).length ≤ salt.cap) :
    ((MakwaMem.hash P mem pw salt wf pre post).1.drop (salt.off + salt.len)).take (Makwa.inner P pre (pw.get mem)).length =
      Makwa.inner P pre (pw.get mem) := by
  obtain ⟨_, _, _, _, h5⟩ := C148.appends mem salt (Makwa.inner P pre (pw.get mem)) (BitVec.ofNat 8 (Makwa.inner P pre (pw.get mem)).length) hv
  unfold MakwaMem.hash at hd ⊢
  dsimp only at hd ⊢
  rw [C148.entered_get] at hd ⊢
  cases hr : refused P wf (Makwa.inner P pre (pw.get mem)).length with
  | some e => rw [hr] at hd; cases hd
  | none => exact h5 hc

/-- A stand-in for HMAC with one-byte outputs. -/
def C148.toy : Params := { N := 2 ^ 1280 - 1, A := { mac := fun _ _ => [1], size := 1 } }

set_option maxRecDepth 20000 in
set_option exponentiation.threshold 4000 in
/-- The result can be wrong too: the salt is the first byte and the password the last two of a slice of four bytes; CheckPassword does not
accept the password for the digest. -/
theorem C148_overlap_violated : ∃ d, (MakwaMem.hash C148.toy [9, 1, 5, 7] (.ref ⟨2, 2, 2⟩) ⟨0, 1, 4⟩ 2 false 0).2 = .ok d ∧
    Buf.get (.ref ⟨2, 2, 2⟩) [9, 1, 5, 7] = [5, 7] ∧ d.salt = [9] ∧ CheckPassword C148.toy d [5, 7] = .error .badPassword := by
  have hr : refused C148.toy 2 2 = none := by decide +kernel
  have e : (MakwaMem.hash C148.toy [9, 1, 5, 7] (.ref ⟨2, 2, 2⟩) ⟨0, 1, 4⟩ 2 false 0).2 =
      .ok (MakwaMem.finish C148.toy [9, 5, 7, 2] [7, 2] [9] 2 2 false 0) := by
    unfold MakwaMem.hash
    dsimp only
    rw [show (entered C148.toy false [9, 1, 5, 7] (.ref ⟨2, 2, 2⟩)).get [9, 1, 5, 7] = [5, 7] from rfl,
      show ([5, 7] : Bytes).length = 2 from rfl, hr]
    rfl
  refine ⟨_, e, rfl, rfl, ?_⟩
  have hh := C148.hash_value C148.toy [5, 7] [9] 2 false 0
  rw [show Makwa.inner C148.toy false [5, 7] = [5, 7] from rfl, show ([5, 7] : Bytes).length = 2 from rfl, hr] at hh
  unfold CheckPassword
  rw [if_neg (by exact not_not.2 rfl)]
  have hh' : Hash C148.toy [5, 7] (MakwaMem.finish C148.toy [9, 5, 7, 2] [7, 2] [9] 2 2 false 0).salt
    (MakwaMem.finish C148.toy [9, 5, 7, 2] [7, 2] [9] 2 2 false 0).workFactor
    (MakwaMem.finish C148.toy [9, 5, 7, 2] [7, 2] [9] 2 2 false 0).preHash
    (MakwaMem.finish C148.toy [9, 5, 7, 2] [7, 2] [9] 2 2 false 0).postHashLen = _ := hh
  rw [hh']
  dsimp only
  refine if_pos ?_
  decide +kernel

/-- A password that is stored before the salt meets the hypotheses of the partial theorem although the salt has spare capacity, and Hash
succeeds: the password is copied behind the salt. -/
example : (⟨2, 1, 4⟩ : Slice).Valid [5, 7, 9, 0, 0, 0] ∧ C148.Apart ⟨2, 1, 4⟩ (.ref ⟨0, 2, 6⟩) ∧
    (MakwaMem.hash C148.toy [5, 7, 9, 0, 0, 0] (.ref ⟨0, 2, 6⟩) ⟨2, 1, 4⟩ 2 false 0).1 = [5, 7, 9, 5, 7, 2] := by
  have hr : refused C148.toy 2 2 = none := by decide +kernel
  refine ⟨⟨by decide, by decide⟩, .inl (by decide), ?_⟩
  unfold MakwaMem.hash
  dsimp only
  rw [show (entered C148.toy false [5, 7, 9, 0, 0, 0] (.ref ⟨0, 2, 6⟩)).get [5, 7, 9, 0, 0, 0] = [5, 7] from rfl,
    show ([5, 7] : Bytes).length = 2 from rfl, hr]
  rfl

/-! Recover -/

/-- Memory that differs from `mem` at most between the end of the salt and its capacity. -/
def C148.Near (salt : Slice) (mem mem' : Bytes) : Prop :=
  mem'.length = mem.length ∧ ∀ i, i < salt.off + salt.len ∨ salt.off + salt.cap ≤ i → mem'[i]? = mem[i]?

theorem C148.near_get {salt : Slice} {mem mem' : Bytes} (h : C148.Near salt mem mem') : salt.get mem' = salt.get mem :=
  GoSlice.slice_congr _ _ _ fun i _ hi => h.2 i (.inl hi)

theorem C148.tryRoot (P : Params) (mem : Bytes) (salt : Slice) (v : Nat) (hv : salt.Valid mem) :
    (MakwaMem.tryRoot P mem salt v).2 = Makwa.tryRoot P (salt.get mem) v ∧
    C148.Near salt mem (MakwaMem.tryRoot P mem salt v).1 ∧
    ∀ pw, (MakwaMem.tryRoot P mem salt v).2 = some pw → salt.len + pw.length ≤ salt.cap →
      ((MakwaMem.tryRoot P mem salt v).1.drop (salt.off + salt.len)).take pw.length = pw := by
  unfold MakwaMem.tryRoot Makwa.tryRoot
  dsimp only
  by_cases h1 : at8 (pad P.N v) 0 ≠ 0x00
  · rw [if_pos h1, if_pos h1]
    exact ⟨rfl, ⟨rfl, fun i _ => rfl⟩, fun pw h => by cases h⟩
  · rw [if_neg h1, if_neg h1]
    by_cases h2 : ((at8 (pad P.N v) ((pad P.N v).length - 1)).toNat : Int) > ((pad P.N v).length : Int) - 32
    · rw [if_pos h2, if_pos h2]
      exact ⟨rfl, ⟨rfl, fun i _ => rfl⟩, fun pw h => by cases h⟩
    · rw [if_neg h2, if_neg h2]
      generalize (List.take (at8 (pad P.N v) ((pad P.N v).length - 1)).toNat
        (List.drop ((pad P.N v).length - (at8 (pad P.N v) ((pad P.N v).length - 1)).toNat - 1) (pad P.N v))) = pw₀
      generalize (BitVec.ofNat 8 (at8 (pad P.N v) ((pad P.N v).length - 1)).toNat) = c
      obtain ⟨e1, e2, e3, _, e5⟩ := C148.appends mem salt pw₀ c hv
      dsimp only
      rw [e1]
      refine ⟨rfl, ⟨e2, fun i hi => e3 i (by omega)⟩, fun pw h hc => ?_⟩
      have : pw₀ = pw := by
        split at h
        · exact Option.some.inj h
        · cases h
      subst this
      exact e5 hc

theorem C148.tryRoots (P : Params) (salt : Slice) (vs : List Nat) : ∀ mem : Bytes, salt.Valid mem →
    (MakwaMem.tryRoots P salt mem vs).2 = vs.findSome? (Makwa.tryRoot P (salt.get mem)) ∧
    C148.Near salt mem (MakwaMem.tryRoots P salt mem vs).1 ∧
    ∀ pw, (MakwaMem.tryRoots P salt mem vs).2 = some pw → salt.len + pw.length ≤ salt.cap →
      ((MakwaMem.tryRoots P salt mem vs).1.drop (salt.off + salt.len)).take pw.length = pw := by
  induction vs with
  | nil => intro mem _; exact ⟨rfl, ⟨rfl, fun i _ => rfl⟩, fun pw h => by cases h⟩
  | cons v vs ih =>
    intro mem hv
    obtain ⟨a, b, c⟩ := C148.tryRoot P mem salt v hv
    unfold MakwaMem.tryRoots
    rw [List.findSome?_cons, ← a]
    rcases hr : MakwaMem.tryRoot P mem salt v with ⟨mem', o⟩
    rw [hr] at b c
    dsimp only at b c
    cases o with
    | some pw => exact ⟨rfl, b, fun pw' h => c pw' h⟩
    | none =>
      dsimp only
      have hv' : salt.Valid mem' := ⟨hv.1, by rw [b.1]; exact hv.2⟩
      obtain ⟨a', b', c'⟩ := ih mem' hv'
      refine ⟨by rw [a', C148.near_get b], ⟨by rw [b'.1, b.1], fun i hi => by rw [b'.2 i hi, b.2 i hi]⟩, c'⟩

/-- Recover gives the result of the value model (C43) whatever lies behind the salt of the digest, and writes nowhere but there. -/
theorem C148_recover (P : Params) (p q : Nat) (mem : Bytes) (salt : Slice) (d : Digest) (hv : salt.Valid mem) (hs : d.salt = salt.get mem) :
    (MakwaMem.recover P p q mem salt d).2 = Recover P p q d ∧ C148.Near salt mem (MakwaMem.recover P p q mem salt d).1 := by
  unfold MakwaMem.recover Recover
  by_cases h1 : d.preHash ∨ d.postHashLen > 0
  · rw [if_pos h1, if_pos h1]; exact ⟨rfl, rfl, fun i _ => rfl⟩
  · rw [if_neg h1, if_neg h1]
    by_cases h2 : d.modulusID ≠ P.modulusID
    · rw [if_pos h2, if_pos h2]; exact ⟨rfl, rfl, fun i _ => rfl⟩
    · rw [if_neg h2, if_neg h2]
      dsimp only
      cases modInverse q p with
      | none => exact ⟨rfl, rfl, fun i _ => rfl⟩
      | some iq =>
        dsimp only
        generalize [crt p q iq _ _, crt p q iq _ _, crt p q iq _ _, crt p q iq _ _] = xc
        obtain ⟨a, b, _⟩ := C148.tryRoots P salt xc mem hv
        rw [hs, ← a]
        rcases hr : MakwaMem.tryRoots P salt mem xc with ⟨mem', o⟩
        rw [hr] at b
        cases o with
        | some pw => exact ⟨rfl, b⟩
        | none => exact ⟨rfl, b⟩

/-- The recovered password also stays in the caller's memory behind the salt, if it fits there. -/
theorem C148_recover_leak_violated (P : Params) (p q : Nat) (mem : Bytes) (salt : Slice) (d : Digest) (hv : salt.Valid mem) (pw : Bytes)
    (h : (MakwaMem.recover P p q mem salt d).2 = .password pw) (hc : salt.len + pw.length ≤ salt.cap) :
    ((MakwaMem.recover P p q mem salt d).1.drop (salt.off + salt.len)).take pw.length = pw := by
  unfold MakwaMem.recover at h ⊢
  by_cases h1 : d.preHash ∨ d.postHashLen > 0
  · rw [if_pos h1] at h; cases h
  · rw [if_neg h1] at h ⊢
    by_cases h2 : d.modulusID ≠ P.modulusID
    · rw [if_pos h2] at h; cases h
    · rw [if_neg h2] at h ⊢
      dsimp only at h ⊢
      cases hm : modInverse q p with
      | none => rw [hm] at h; cases h
      | some iq =>
        rw [hm] at h
        dsimp only at h ⊢
        generalize [crt p q iq _ _, crt p q iq _ _, crt p q iq _ _, crt p q iq _ _] = xc at h ⊢
        obtain ⟨_, _, c⟩ := C148.tryRoots P salt xc mem hv
        rcases hr : MakwaMem.tryRoots P salt mem xc with ⟨mem', o⟩
        rw [hr] at h c
        cases o with
        | none => cases h
        | some pw' =>
          have e : pw' = pw := by injection h
          subst e
          exact c pw' rfl hc

/-- The digest of `C43_makwa_recover_example`, with an empty salt in a slice of 300 bytes: Recover gives a password, so the hypotheses of
the two theorems are met. -/
example : ∃ d pw, d.salt = (⟨0, 0, 300⟩ : Slice).get (zeros 300) ∧ (⟨0, 0, 300⟩ : Slice).Valid (zeros 300) ∧
    (MakwaMem.recover { N := toyR * toyQ, A := toyMac } toyR toyQ (zeros 300) ⟨0, 0, 300⟩ d).2 = .password pw := by
  obtain ⟨h1, h2, h3, h4, h5, h6, d, hd⟩ := C43_makwa_recover_example
  obtain ⟨pw, hp, _⟩ := C43_makwa_recover_partial toyR toyQ h1 h2 h3 h4 h5 toyMac toyMac_good h6 [0x70, 0x77] [] 2 0 (by decide) (by decide) d hd
  have hs : d.salt = [] := by
    obtain ⟨_, _, _, _, e⟩ := (Hash_ok _ _ _ _ _ _ d).1 hd
    rw [e]
  have hv : (⟨0, 0, 300⟩ : Slice).Valid (zeros 300) := ⟨by decide, by rw [zeros, List.length_replicate]; decide⟩
  refine ⟨d, pw, hs, hv, ?_⟩
  rw [(C148_recover _ toyR toyQ (zeros 300) ⟨0, 0, 300⟩ d hv hs).1, hp]

/-! ### C149 -/

/-- How far a goroutine with the password `pw` may be when nothing disturbs it. -/
def C149.Fine (P : Params) (s : Bytes) (wf : Int) (pre : Bool) (post : Int) (pw : Bytes) (t : Thread) : Prop :=
  t = .entry pw ∨ t = .grown pw (.own (s ++ pw)) ∨ t = .built pw (.own (s ++ pw ++ [BitVec.ofNat 8 pw.length])) ∨
  t = .finished (MakwaMem.finish P (s ++ pw ++ [BitVec.ofNat 8 pw.length]) pw s pw.length wf pre post)

theorem C149.step (P : Params) (mem : Bytes) (salt : Slice) (wf : Int) (pre : Bool) (post : Int) (pw : Bytes) (t : Thread)
    (hc : salt.cap < salt.len + pw.length) (ht : C149.Fine P (salt.get mem) wf pre post pw t) :
    (stepThread P salt wf pre post mem t).1 = mem ∧
    C149.Fine P (salt.get mem) wf pre post pw (stepThread P salt wf pre post mem t).2 := by
  rcases ht with rfl | rfl | rfl | rfl
  · have e : GoSlice.append mem (.ref salt) pw = (mem, .own (salt.get mem ++ pw)) := if_neg (by omega)
    unfold stepThread
    dsimp only
    rw [e]
    exact ⟨rfl, .inr (.inl rfl)⟩
  · exact ⟨rfl, .inr (.inr (.inl rfl))⟩
  · exact ⟨rfl, .inr (.inr (.inr rfl))⟩
  · exact ⟨rfl, .inr (.inr (.inr rfl))⟩

theorem C149.inv (P : Params) (mem : Bytes) (salt : Slice) (wf : Int) (pre : Bool) (post : Int) (pws : List Bytes)
    (hc : ∀ pw ∈ pws, salt.cap < salt.len + pw.length) (sch : List Nat) :
    ∀ ts : List Thread, (∀ (i : Nat) (pw : Bytes), pws[i]? = some pw → ∃ t, ts[i]? = some t ∧ C149.Fine P (salt.get mem) wf pre post pw t) →
      ts.length = pws.length →
      (runThreads P salt wf pre post (mem, ts) sch).1 = mem ∧
      ∀ (i : Nat) (pw : Bytes), pws[i]? = some pw →
        ∃ t, (runThreads P salt wf pre post (mem, ts) sch).2[i]? = some t ∧ C149.Fine P (salt.get mem) wf pre post pw t := by
  induction sch with
  | nil => intro ts h _; exact ⟨rfl, h⟩
  | cons j is ih =>
    intro ts h hl
    unfold runThreads
    dsimp only
    cases hj : ts[j]? with
    | none => exact ih ts h hl
    | some t =>
      dsimp only
      have hjl : j < ts.length := (List.getElem?_eq_some_iff.1 hj).1
      obtain ⟨t', ht', hf⟩ := h j pws[j] (List.getElem?_eq_getElem (by omega))
      have htt : t = t' := Option.some.inj (hj.symm.trans ht')
      subst htt
      obtain ⟨e1, e2⟩ := C149.step P mem salt wf pre post _ t (hc _ (List.getElem_mem (by omega))) hf
      rw [e1]
      refine ih _ ?_ (by rw [List.length_set]; exact hl)
      intro i pw hi
      by_cases hij : j = i
      · subst hij
        have : pw = pws[j] := by
          rw [List.getElem?_eq_getElem (by omega)] at hi
          exact (Option.some.inj hi).symm
        rw [this]
        exact ⟨_, by rw [List.getElem?_set_self hjl], e2⟩
      · rw [List.getElem?_set_ne hij]
        exact h i pw hi

/-- The property one would expect, "goroutines may hash, or check passwords, with one salt slice: each gets the digest of its password",
holds under every schedule when the passwords are longer than the spare capacity of the slice. -/
theorem C149_schedules_partial (P : Params) (mem : Bytes) (salt : Slice) (wf : Int) (pre : Bool) (post : Int) (pws : List Bytes)
    (hc : ∀ pw ∈ pws, salt.cap < salt.len + (Makwa.inner P pre pw).length) (sch : List Nat) (i : Nat) (pw : Bytes) (d : Digest)
    (hi : pws[i]? = some pw) (hr : refused P wf (Makwa.inner P pre pw).length = none)
    (hd : (runThreads P salt wf pre post (mem, pws.map fun p => .entry (Makwa.inner P pre p)) sch).2[i]? = some (.finished d)) :
    Hash P pw (salt.get mem) wf pre post = .ok d := by
  obtain ⟨_, h⟩ := C149.inv P mem salt wf pre post (pws.map (Makwa.inner P pre)) (by
    intro p hp
    obtain ⟨q, hq, rfl⟩ := List.mem_map.1 hp
    exact hc q hq) sch (pws.map fun p => .entry (Makwa.inner P pre p)) (by
    intro i p hp
    rw [List.getElem?_map] at hp
    cases hq : pws[i]? with
    | none => rw [hq] at hp; cases hp
    | some q =>
      rw [hq] at hp
      have : Makwa.inner P pre q = p := Option.some.inj hp
      refine ⟨.entry p, ?_, .inl rfl⟩
      rw [List.getElem?_map, hq, ← this]; rfl) (by simp)
  obtain ⟨t, ht, hf⟩ := h i (Makwa.inner P pre pw) (by rw [List.getElem?_map, hi]; rfl)
  rw [hd] at ht
  injection ht with ht
  rw [C148.hash_value, hr]
  dsimp only
  rcases hf with hf | hf | hf | hf
  · rw [hf] at ht; cases ht
  · rw [hf] at ht; cases ht
  · rw [hf] at ht; cases ht
  · rw [hf] at ht; injection ht with ht; rw [ht]

/-- Three turns bring a goroutine to its result, whatever the others do in between. -/
theorem C149_three_turns (P : Params) (salt : Slice) (wf : Int) (pre : Bool) (post : Int) (m₁ m₂ m₃ : Bytes) (pw : Bytes) :
    ∃ d, (stepThread P salt wf pre post m₃ (stepThread P salt wf pre post m₂ (stepThread P salt wf pre post m₁ (.entry pw)).2).2).2 =
      .finished d := ⟨_, rfl⟩

theorem C149.b64_length (b : Bytes) : (b64Encode b).length = (4 * b.length + 2) / 3 := by
  induction b using b64Encode.induct with
  | case1 b0 b1 b2 rest ih =>
    have e : ∀ w x y z : Byte, ([w, x, y, z] ++ b64Encode rest).length = (b64Encode rest).length + 4 := fun w x y z => by simp
    have h : (b64Encode (b0 :: b1 :: b2 :: rest)).length = (b64Encode rest).length + 4 := by rw [b64Encode]; exact e _ _ _ _
    rw [h, ih]
    simp only [List.length_cons]
    omega
  | _ => first | rfl | simp [b64Encode]

/-- The slices of parsed digests do have spare capacity: a third of the length of the salt, 6 bytes for the 16 bytes Hash chooses. -/
theorem C149_parsed_spare (salt : Bytes) :
    b64Decode (b64Encode salt) = some salt ∧
    (decoded (b64Encode salt) salt.length).cap - (decoded (b64Encode salt) salt.length).len = (salt.length + 2) / 3 := by
  refine ⟨b64_roundtrip salt, ?_⟩
  show (b64Encode salt).length - salt.length = _
  rw [C149.b64_length]
  omega

/-- A stand-in for HMAC with one-byte outputs that depend on the input: the exclusive or of all bytes. -/
def C149.toy : Params := { N := 2 ^ 1280 - 1, A := { mac := fun k m => [(k ++ m).foldl (· ^^^ ·) 0], size := 1 } }

set_option maxRecDepth 20000 in
set_option exponentiation.threshold 4000 in
/-- It fails otherwise: two goroutines take turns with the passwords 3 and 5, a salt of one byte and two bytes of spare capacity.  The first
one gets a digest that is not the one of its password: its right password is rejected. -/
theorem C149_race_violated : ∃ d d', Hash C149.toy [3] [9] 2 false 0 = .ok d ∧
    (runThreads C149.toy ⟨0, 1, 3⟩ 2 false 0 ([9, 0, 0], [.entry [3], .entry [5]]) [0, 1, 0, 1, 0, 1]).2[0]? = some (.finished d') ∧
    d.hash ≠ d'.hash := by
  have hr : refused C149.toy 2 1 = none := by decide +kernel
  have hh := C148.hash_value C149.toy [3] [9] 2 false 0
  rw [show Makwa.inner C149.toy false [3] = [3] from rfl, show ([3] : Bytes).length = 1 from rfl, hr] at hh
  refine ⟨_, MakwaMem.finish C149.toy [9, 5, 1] [3] [9] 1 2 false 0, hh, rfl, ?_⟩
  decide +kernel

/-- One after the other they are right: the fault is the sharing. -/
example : (runThreads C149.toy ⟨0, 1, 3⟩ 2 false 0 ([9, 0, 0], [.entry [3], .entry [5]]) [0, 0, 0, 1, 1, 1]).2 =
    [.finished (MakwaMem.finish C149.toy [9, 3, 1] [3] [9] 1 2 false 0), .finished (MakwaMem.finish C149.toy [9, 5, 1] [5] [9] 1 2 false 0)] := rfl

/-- Passwords of three bytes meet the hypotheses of the partial theorem with that salt. -/
example : (∀ pw ∈ [[3, 4, 5], [5, 6, 7]], (⟨0, 1, 3⟩ : Slice).cap < (⟨0, 1, 3⟩ : Slice).len + (Makwa.inner C149.toy false pw).length) ∧
    refused C149.toy 2 3 = none ∧
    (runThreads C149.toy ⟨0, 1, 3⟩ 2 false 0 ([9, 0, 0], [.entry [3, 4, 5], .entry [5, 6, 7]]) [0, 1, 0, 1, 0]).2[0]? =
      some (.finished (MakwaMem.finish C149.toy [9, 3, 4, 5, 3] [3, 4, 5] [9] 3 2 false 0)) := by
  refine ⟨?_, by decide +kernel, rfl⟩
  intro pw hpw
  simp only [List.mem_cons, List.not_mem_nil, or_false] at hpw
  rcases hpw with rfl | rfl <;> decide

end Verif.Props
