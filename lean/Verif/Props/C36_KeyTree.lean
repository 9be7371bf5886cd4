import Verif.Model.KeyTree
import Verif.Spec.KeyTree
import Verif.Props.C33_Streebog
/-
C36: the key trees of gost/gost34112012256.
-/
namespace Verif.Props
open Verif.KeyTree

/-- The model's hash is the standard's. -/
theorem keyTree_H {m : Bytes} (h : m.length < 2 ^ 61) : KeyTree.H m = Spec.Streebog.hash 32 m := by
  unfold KeyTree.H
  have hn : Gost12.new 32 = some (Gost12.reset { size := 32, buf := [], n := 0, hsh := zeros 64, chk := zeros 64 }) := rfl
  have hr := Gost12.repr_write (Gost12.repr_reset (d := { size := 32, buf := [], n := 0, hsh := zeros 64, chk := zeros 64 }) (size := 32) rfl) m h
  rw [hn, Option.bind_some, Gost12.repr_sum (Or.inl rfl) hr h]
  rfl

theorem hash32_length (m : Bytes) : (Spec.Streebog.hash 32 m).length = 32 := by
  have hrl := restBlock_length 64 m
  have hmod := Nat.mod_lt m.length (show 0 < 64 by decide)
  have hpl : (restBlock 64 m ++ [1#8] ++ zeros (63 - m.length % 64)).length = 64 := by simp; omega
  have h0 := Gost12.foldLen (fullBlocks 64 m) (fun b hb => mem_fullBlocks_length 64 m b hb) (Gost12.iv 32, 0, 0) (Gost12.iv_length 32)
  unfold Spec.Streebog.hash
  simp only
  rw [show (if True then List.replicate 64 1#8 else zeros 64) = Gost12.iv 32 from rfl]
  generalize (fullBlocks 64 m).foldl Spec.Streebog.absorb (Gost12.iv 32, 0, 0) = st at *
  obtain ⟨a, b, c⟩ := st
  simp only at h0 ⊢
  rw [List.length_drop, Spec.Streebog.g_length (Spec.Streebog.g_length (Spec.Streebog.g_length h0 hpl) (Spec.Streebog.natLE_length _ _)) (Spec.Streebog.natLE_length _ _)]

theorem kdf_eq {key label seed : Bytes} (hk : key.length < 2 ^ 60) (hl : label.length < 64) (hs : seed.length < 64) :
    KeyTree.kdf key label seed = Spec.KeyTree.kdf key label seed := by
  have hh := hash32_length
  unfold KeyTree.kdf Spec.KeyTree.kdf KeyTree.hmac Spec.KeyTree.hmac
  have hkk : (if key.length > 64 then KeyTree.H key else key) = (if key.length > 64 then Spec.Streebog.hash 32 key else key) := by
    rw [keyTree_H (by omega)]
  have hle : (if key.length > 64 then Spec.Streebog.hash 32 key else key).length ≤ 64 := by
    split
    · rw [hh]; decide
    · omega
  simp only
  rw [hkk]
  generalize (if key.length > 64 then Spec.Streebog.hash 32 key else key) = k at hle
  have hc : goCopy (zeros 64) 0 k = k ++ zeros (64 - k.length) := by
    unfold goCopy
    rw [List.take_zero, List.nil_append, List.take_of_length_le (by simp; omega), Nat.zero_add]
    unfold zeros
    rw [List.drop_replicate]
  have hp : (k ++ zeros (64 - k.length)).length = 64 := by simp; omega
  rw [hc, keyTree_H, keyTree_H]
  · simp only [List.append_assoc, List.cons_append, List.nil_append]
  · simp only [List.length_append, List.length_map, List.length_cons, List.length_nil] at hp ⊢; omega
  · rw [keyTree_H (by simp only [List.length_append, List.length_map, List.length_cons, List.length_nil] at hp ⊢; omega), List.length_append, List.length_map, hp, hh]
    omega

theorem kdf_length (key label seed : Bytes) : (Spec.KeyTree.kdf key label seed).length = 32 := by
  unfold Spec.KeyTree.kdf Spec.KeyTree.hmac
  exact hash32_length _

/-! ### Histories -/

/-- One call: the requested index, and whether it was `DeriveCached` (`true`) or `Derive` (`false`). -/
abbrev TreeCall (ι : Type) := ι × Bool
/-- One answer: the key, and the flag if the call was `DeriveCached`. -/
abbrev TreeAns := Bytes × Option Bool

/-- The answers are right: each key is the key of the asked index, the flag is present exactly on `DeriveCached`, and it is true
only if the key is the one the previous call returned (`prev`). -/
def RightAnswers {ι} (keyOf : ι → Bytes) : Option Bytes → List (TreeCall ι) → List TreeAns → Prop
  | _, [], [] => True
  | prev, c :: cs, a :: as => a.1 = keyOf c.1 ∧ a.2.isSome = c.2 ∧ (a.2 = some true → prev = some a.1) ∧ RightAnswers keyOf (some a.1) cs as
  | _, _, _ => False

/-- A history of calls on a TLSTree. -/
def tlsRun : TLSTree → List (TreeCall U64) → List TreeAns
  | _, [] => []
  | t, (n, true) :: cs => let r := t.deriveCached n; (r.2.1, some r.2.2) :: tlsRun r.1 cs
  | t, (n, false) :: cs => let r := t.derive n; (r.2, none) :: tlsRun r.1 cs

/-- A history of calls on an ESPTree; `none` is a panic. -/
def espRun : ESPTree → List (TreeCall Bytes) → Option (List TreeAns)
  | _, [] => some []
  | t, (i, true) :: cs => (t.deriveCached i).bind fun r => (espRun r.1 cs).map fun as => (r.2.1, some r.2.2) :: as
  | t, (i, false) :: cs => (t.derive i).bind fun r => (espRun r.1 cs).map fun as => (r.2, none) :: as

theorem goCopy32 {k : Bytes} (h : k.length = 32) : goCopy (zeros 32) 0 k = k := by
  unfold goCopy
  rw [List.take_zero, List.nil_append, List.take_of_length_le (by simp; omega), List.drop_of_length_le (by simp; omega), List.append_nil]

/-- The keys of a TLSTree as the standard defines them. -/
abbrev tlsKey (P : Params) (root : Bytes) : U64 → Bytes := Spec.KeyTree.tls P.p0 P.p1 P.p2 root

/-- What `DeriveCached` does in a tree whose key belongs to its stored number, or on a miss. -/
theorem tls_step (t : TLSTree) (hr : t.keyRoot.length < 2 ^ 60) (n : U64)
    (h : t.key = tlsKey t.params t.keyRoot t.seqNumPrev ∨ n = 0 ∨ n &&& t.params.p0 ≠ t.seqNumPrev &&& t.params.p0 ∨
      n &&& t.params.p1 ≠ t.seqNumPrev &&& t.params.p1 ∨ n &&& t.params.p2 ≠ t.seqNumPrev &&& t.params.p2) :
    (t.deriveCached n).2.1 = tlsKey t.params t.keyRoot n ∧ (t.deriveCached n).1.params = t.params ∧ (t.deriveCached n).1.keyRoot = t.keyRoot ∧
    (t.deriveCached n).1.key = tlsKey t.params t.keyRoot (t.deriveCached n).1.seqNumPrev ∧ (t.deriveCached n).1.key = (t.deriveCached n).2.1 ∧
    ((t.deriveCached n).2.2 = true → (t.deriveCached n).2.1 = t.key ∧ t.key = tlsKey t.params t.keyRoot t.seqNumPrev) := by
  unfold TLSTree.deriveCached
  by_cases hc : n > 0 ∧ n &&& t.params.p0 = t.seqNumPrev &&& t.params.p0 ∧ n &&& t.params.p1 = t.seqNumPrev &&& t.params.p1 ∧
      n &&& t.params.p2 = t.seqNumPrev &&& t.params.p2
  · rw [if_pos hc]
    have hk : t.key = tlsKey t.params t.keyRoot t.seqNumPrev := by
      rcases h with h | h | h | h | h
      · exact h
      · rw [h] at hc; exact absurd hc.1 (by decide)
      · exact absurd hc.2.1 h
      · exact absurd hc.2.2.1 h
      · exact absurd hc.2.2.2 h
    refine ⟨?_, rfl, rfl, hk, rfl, fun _ => ⟨rfl, hk⟩⟩
    show t.key = _
    rw [hk]
    unfold tlsKey Spec.KeyTree.tls
    rw [hc.2.1, hc.2.2.1, hc.2.2.2]
  · rw [if_neg hc]
    have e : KeyTree.kdf (KeyTree.kdf (KeyTree.kdf t.keyRoot (ascii "level1") (be64 (n &&& t.params.p0))) (ascii "level2") (be64 (n &&& t.params.p1)))
        (ascii "level3") (be64 (n &&& t.params.p2)) = tlsKey t.params t.keyRoot n := by
      have hb : ∀ w, (be64 w).length < 64 := by intro w; rw [be64_length]; decide
      have hk : ∀ a b c, (Spec.KeyTree.kdf a b c).length < 2 ^ 60 := by intro a b c; rw [kdf_length]; decide
      rw [kdf_eq hr (by decide) (hb _), kdf_eq (hk _ _ _) (by decide) (hb _), kdf_eq (hk _ _ _) (by decide) (hb _)]
      rfl
    simp only
    rw [e]
    simp

theorem tls_coherent : ∀ (cs : List (TreeCall U64)) (t : TLSTree), t.keyRoot.length < 2 ^ 60 → t.key = tlsKey t.params t.keyRoot t.seqNumPrev →
    RightAnswers (tlsKey t.params t.keyRoot) (some t.key) cs (tlsRun t cs) := by
  intro cs
  induction cs with
  | nil => intro t _ _; exact True.intro
  | cons c cs ih =>
    intro t hr hk
    obtain ⟨n, b⟩ := c
    obtain ⟨s1, s2, s3, s4, s5, s6⟩ := tls_step t hr n (Or.inl hk)
    have hi := ih (t.deriveCached n).1 (by rw [s3]; exact hr) (by rw [s2, s3]; exact s4)
    rw [s2, s3, s5] at hi
    cases b with
    | true =>
      refine ⟨s1, rfl, ?_, hi⟩
      intro hf
      have := s6 (Option.some.inj hf)
      show some t.key = some (t.deriveCached n).2.1
      rw [this.1]
    | false =>
      have hd : t.derive n = ((t.deriveCached n).1, (t.deriveCached n).2.1) := by
        unfold TLSTree.derive
        simp only
        rw [goCopy32 (by rw [s1]; exact kdf_length _ _ _)]
      show RightAnswers _ _ _ (((t.derive n).2, none) :: tlsRun (t.derive n).1 cs)
      rw [hd]
      exact ⟨s1, rfl, fun h => absurd h (by simp), hi⟩

/-- TLSTree, for every parameter set, every root key and every sequence of calls whose first request is number 0 or has a bit
under one of the masks. Missing from C36: the other first requests, `C36_tls_violated`. -/
theorem C36_tls_partial (P : Params) (root : Bytes) (hr : root.length < 2 ^ 60) (n : U64) (b : Bool) (cs : List (TreeCall U64))
    (hn : n = 0 ∨ n &&& P.p0 ≠ 0 ∨ n &&& P.p1 ≠ 0 ∨ n &&& P.p2 ≠ 0) :
    RightAnswers (Spec.KeyTree.tls P.p0 P.p1 P.p2 root) none ((n, b) :: cs) (tlsRun (newTLSTree P root) ((n, b) :: cs)) := by
  have z : ∀ x : U64, (newTLSTree P root).seqNumPrev &&& x = 0 := by intro x; exact BitVec.zero_and
  have hcond : n = 0 ∨ n &&& (newTLSTree P root).params.p0 ≠ (newTLSTree P root).seqNumPrev &&& (newTLSTree P root).params.p0 ∨
      n &&& (newTLSTree P root).params.p1 ≠ (newTLSTree P root).seqNumPrev &&& (newTLSTree P root).params.p1 ∨
      n &&& (newTLSTree P root).params.p2 ≠ (newTLSTree P root).seqNumPrev &&& (newTLSTree P root).params.p2 := by
    rw [z, z, z]; exact hn
  obtain ⟨s1, s2, s3, s4, s5, s6⟩ := tls_step (newTLSTree P root) hr n (Or.inr hcond)
  have hmiss : ((newTLSTree P root).deriveCached n).2.2 = false := by
    unfold TLSTree.deriveCached
    rw [if_neg]
    rintro ⟨h1, h2, h3, h4⟩
    rcases hcond with h | h | h | h
    · rw [h] at h1; exact absurd h1 (by decide)
    · exact h h2
    · exact h h3
    · exact h h4
  have hi := tls_coherent cs ((newTLSTree P root).deriveCached n).1 (by rw [s3]; exact hr) (by rw [s2, s3]; exact s4)
  rw [s2, s3, s5] at hi
  cases b with
  | true =>
    refine ⟨s1, rfl, ?_, hi⟩
    intro hf
    have := Option.some.inj hf
    rw [hmiss] at this
    exact Bool.noConfusion this
  | false =>
    have hd : (newTLSTree P root).derive n = (((newTLSTree P root).deriveCached n).1, ((newTLSTree P root).deriveCached n).2.1) := by
      unfold TLSTree.derive
      simp only
      rw [goCopy32 (by rw [s1]; exact kdf_length _ _ _)]
    show RightAnswers _ _ _ ((((newTLSTree P root).derive n).2, none) :: tlsRun ((newTLSTree P root).derive n).1 cs)
    rw [hd]
    exact ⟨s1, rfl, fun h => absurd h (by simp), hi⟩

/-- The remaining first requests: for every parameter set and root key, the first `DeriveCached` of a number above 0 with no bit
under the masks answers 32 zero bytes and claims they were cached. -/
theorem C36_tls_first (P : Params) (root : Bytes) (n : U64) (h : n ≠ 0) (h0 : n &&& P.p0 = 0) (h1 : n &&& P.p1 = 0) (h2 : n &&& P.p2 = 0) :
    tlsRun (newTLSTree P root) [(n, true), (n, false)] = [(zeros 32, some true), (zeros 32, none)] := by
  have z : ∀ x : U64, (0 : U64) &&& x = 0 := by intro x; exact BitVec.zero_and
  have hd : (newTLSTree P root).deriveCached n = (newTLSTree P root, zeros 32, true) := by
    unfold TLSTree.deriveCached
    rw [if_pos]
    · rfl
    · refine ⟨?_, ?_, ?_, ?_⟩
      · have : n.toNat ≠ 0 := fun hc => h (BitVec.eq_of_toNat_eq hc)
        show (0 : U64) < n
        rw [BitVec.lt_def]
        show 0 < n.toNat
        omega
      · rw [show (newTLSTree P root).seqNumPrev = 0 from rfl, z]; exact h0
      · rw [show (newTLSTree P root).seqNumPrev = 0 from rfl, z]; exact h1
      · rw [show (newTLSTree P root).seqNumPrev = 0 from rfl, z]; exact h2
  have hd2 : (newTLSTree P root).derive n = (newTLSTree P root, zeros 32) := by
    unfold TLSTree.derive
    rw [hd]
    rfl
  simp only [tlsRun, hd, hd2]

/-- C36 fails for TLSTree: record number 1 asked first of a fresh tree with the standard's Kuznyechik CTR-OMAC masks. -/
theorem C36_tls_violated (root : Bytes) :
    ¬ RightAnswers (Spec.KeyTree.tls kuznyechikCTROMAC.p0 kuznyechikCTROMAC.p1 kuznyechikCTROMAC.p2 root) none [(1, true), (1, false)]
      (tlsRun (newTLSTree kuznyechikCTROMAC root) [(1, true), (1, false)]) := by
  rw [C36_tls_first _ root 1 (by decide) (by decide) (by decide) (by decide)]
  rintro ⟨_, _, h, _⟩
  exact absurd (h rfl) (by simp)

/-! ### ESPTree -/

/-- The key of an index of five bytes. -/
def espKey (root : Bytes) (is : Bytes) : Bytes := Spec.KeyTree.esp root (at8 is 0) ((is.drop 1).take 2) (is.drop 3)

theorem esp_miss {root : Bytes} (hr : root.length < 2 ^ 60) {is : Bytes} (hi : is.length = 5) :
    KeyTree.kdf (KeyTree.kdf (KeyTree.kdf root (ascii "level1") [0#8, at8 is 0]) (ascii "level2") ((is.take 3).drop 1)) (ascii "level3") ((is.take 5).drop 3) =
      espKey root is := by
  match is, hi with
  | [a, b, c, d, e], _ =>
    have hk : ∀ a b c, (Spec.KeyTree.kdf a b c).length < 2 ^ 60 := by intro a b c; rw [kdf_length]; decide
    rw [kdf_eq hr (by decide) (by show 2 < 64; decide), kdf_eq (hk _ _ _) (by decide) (by show 2 < 64; decide), kdf_eq (hk _ _ _) (by decide) (by show 2 < 64; decide)]
    rfl

theorem esp_step (t : ESPTree) (hr : t.keyRoot.length < 2 ^ 60) (hp : t.isPrev.length = 5) (hk : t.key = espKey t.keyRoot t.isPrev) (is : Bytes) (hi : is.length = 5) :
    ∃ t' f, t.deriveCached is = some (t', espKey t.keyRoot is, f) ∧ t'.keyRoot = t.keyRoot ∧ t'.isPrev = is ∧ t'.key = espKey t.keyRoot is ∧ (f = true → t.key = espKey t.keyRoot is) := by
  unfold ESPTree.deriveCached
  rw [if_neg (by omega)]
  by_cases hc : t.isPrev = is
  · rw [if_pos hc]
    rw [hc] at hk
    exact ⟨t, true, by rw [← hk], rfl, hc, hk, fun _ => hk⟩
  · rw [if_neg hc]
    simp only
    rw [esp_miss hr hi]
    refine ⟨_, _, rfl, rfl, ?_, rfl, fun h => Bool.noConfusion h⟩
    unfold goCopy
    rw [List.take_zero, List.nil_append, hp, List.take_of_length_le (by omega), List.drop_of_length_le (by omega), List.append_nil]

theorem esp_coherent : ∀ (cs : List (TreeCall Bytes)) (t : ESPTree), (∀ c ∈ cs, c.1.length = 5) → t.keyRoot.length < 2 ^ 60 → t.isPrev.length = 5 → t.key = espKey t.keyRoot t.isPrev →
    ∃ as, espRun t cs = some as ∧ RightAnswers (espKey t.keyRoot) (some t.key) cs as := by
  intro cs
  induction cs with
  | nil => intro t _ _ _ _; exact ⟨[], rfl, True.intro⟩
  | cons c cs ih =>
    intro t hcs hr hp hk
    obtain ⟨is, b⟩ := c
    have hi : is.length = 5 := hcs (is, b) (List.mem_cons_self ..)
    obtain ⟨t', f, e, e1, e2, e3, e4⟩ := esp_step t hr hp hk is hi
    obtain ⟨as, a1, a2⟩ := ih t' (fun c hc => hcs c (List.mem_cons_of_mem _ hc)) (by rw [e1]; exact hr) (by rw [e2]; exact hi) (by rw [e1, e2]; exact e3)
    rw [e1, e3] at a2
    cases b with
    | true =>
      refine ⟨(espKey t.keyRoot is, some f) :: as, ?_, rfl, rfl, ?_, a2⟩
      · simp only [espRun, e, Option.bind_some, a1, Option.map_some]
      · intro hf; rw [e4 (Option.some.inj hf)]
    | false =>
      have hd : t.derive is = some (t', espKey t.keyRoot is) := by
        unfold ESPTree.derive
        rw [e, Option.map_some]
        show some (t', goCopy (zeros 32) 0 (espKey t.keyRoot is)) = _
        rw [goCopy32 (by exact kdf_length _ _ _)]
      refine ⟨(espKey t.keyRoot is, none) :: as, ?_, rfl, rfl, fun h => absurd h (by simp), a2⟩
      simp only [espRun, hd, Option.bind_some, a1, Option.map_some]

/-- ESPTree, for every root key and every sequence of calls with five-byte indices. `NewESPTree` has asked for index 00000, which
counts as the call before the first. -/
theorem C36_esp (root : Bytes) (hr : root.length < 2 ^ 60) (cs : List (TreeCall Bytes)) (hcs : ∀ c ∈ cs, c.1.length = 5) :
    ∃ t as, newESPTree root = some t ∧ espRun t cs = some as ∧
      RightAnswers (fun is => Spec.KeyTree.esp root (at8 is 0) ((is.drop 1).take 2) (is.drop 3))
        (some (Spec.KeyTree.esp root 0#8 [0#8, 0#8] [0#8, 0#8])) cs as := by
  have hn : newESPTree root = some { keyRoot := root, isPrev := zeros 5, key := espKey root (zeros 5) } := by
    unfold newESPTree ESPTree.deriveCached
    simp only
    rw [if_neg (by decide), if_neg (by decide), esp_miss hr (by decide)]
    rfl
  obtain ⟨as, a1, a2⟩ := esp_coherent cs { keyRoot := root, isPrev := zeros 5, key := espKey root (zeros 5) } hcs hr rfl rfl
  exact ⟨_, as, hn, a1, a2⟩

/-- An index of another length panics. -/
theorem C36_esp_panics (t : ESPTree) (is : Bytes) (h : is.length ≠ 5) : t.deriveCached is = none ∧ t.derive is = none := by
  have : t.deriveCached is = none := by unfold ESPTree.deriveCached; rw [if_pos h]
  exact ⟨this, by unfold ESPTree.derive; rw [this]; rfl⟩

/-! The hypotheses are met by concrete histories. -/
example : (∀ c ∈ ([([1, 2, 3, 4, 5], true), ([1, 2, 3, 4, 5], false), ([0, 0, 0, 0, 0], true)] : List (TreeCall Bytes)), c.1.length = 5) := by decide
example : (63 : U64) &&& kuznyechikCTROMAC.p2 = 0 ∧ (64 : U64) &&& kuznyechikCTROMAC.p2 ≠ 0 := by decide

end Verif.Props
