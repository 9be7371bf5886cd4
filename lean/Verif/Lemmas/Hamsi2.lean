import Verif.Lemmas.Hamsi
namespace Verif.Hamsi
open Spec.Hamsi (g sub4 minterm L app Variant addConst)

theorem getD_map (σ : List Nat) (R : Regs) (i : Nat) (h : i < σ.length) : g (σ.map R) i = R (σ.getD i 0) := by
  simp [g, List.getD_eq_getElem?_getD, List.getElem?_eq_getElem h]

theorem g_set (s : List U32) (i j : Nat) (x : U32) (h : i < s.length) : g (s.set i x) j = if i = j then x else g s j := by
  unfold g
  simp only [List.getD_eq_getElem?_getD, List.getElem?_set]
  by_cases e : i = j
  · subst e; simp [h]
  · simp [e]

theorem nodup_getD (σ : List Nat) (hσ : σ.Nodup) (i j : Nat) (hi : i < σ.length) (hj : j < σ.length) (h : σ.getD i 0 = σ.getD j 0) : i = j := by
  simp only [List.getD_eq_getElem?_getD, List.getElem?_eq_getElem hi, List.getElem?_eq_getElem hj, Option.getD_some] at h
  exact (List.Nodup.getElem_inj_iff hσ).mp h

theorem list_ext_g (a b : List U32) (h : a.length = b.length) (he : ∀ i < a.length, g a i = g b i) : a = b := by
  apply List.ext_getElem h
  intro i h1 h2
  have := he i h1
  simpa [g, List.getD_eq_getElem?_getD, List.getElem?_eq_getElem h1, List.getElem?_eq_getElem h2] using this

def Ok (σ : List Nat) (p : Nat × Nat × Nat × Nat) : Prop :=
  [p.1, p.2.1, p.2.2.1, p.2.2.2].Nodup ∧ p.1 < σ.length ∧ p.2.1 < σ.length ∧ p.2.2.1 < σ.length ∧ p.2.2.2 < σ.length
instance (σ : List Nat) (p : Nat × Nat × Nat × Nat) : Decidable (Ok σ p) := by unfold Ok; infer_instance

theorem mem32 (σ : List Nat) (h : 32 ∉ σ) (i : Nat) (hi : i < σ.length) : σ.getD i 0 ≠ 32 := by
  intro e; apply h; rw [← e]
  simp only [List.getD_eq_getElem?_getD, List.getElem?_eq_getElem hi, Option.getD_some]
  exact List.getElem_mem hi

theorem app_abs {f : List U32 → List U32} {P : Nat → Nat → Nat → Nat → List Ins} (hA : Acts f P) (σ : List Nat) (hσ : σ.Nodup) (h32 : 32 ∉ σ)
    (p : Nat × Nat × Nat × Nat) (hp : Ok σ p) (al : List U32) (rc : Nat) (R : Regs) :
    σ.map (exec al rc R (pick σ P p)) = app f (σ.map R) p := by
  obtain ⟨i, j, k, l⟩ := p
  obtain ⟨hn, hi, hj, hk, hl⟩ := hp
  simp only at hn hi hj hk hl
  simp only [List.nodup_cons, List.mem_cons, List.not_mem_nil, not_or, or_false] at hn
  obtain ⟨⟨n1, n2, n3⟩, ⟨n4, n5⟩, n6, -⟩ := hn
  have inj := nodup_getD σ hσ
  have hN : [σ.getD i 0, σ.getD j 0, σ.getD k 0, σ.getD l 0, 32].Nodup := by
    simp only [List.nodup_cons, List.mem_cons, List.not_mem_nil, not_or, or_false]
    refine ⟨⟨fun e => n1 (inj i j hi hj e), fun e => n2 (inj i k hi hk e), fun e => n3 (inj i l hi hl e), mem32 σ h32 i hi⟩,
      ⟨fun e => n4 (inj j k hj hk e), fun e => n5 (inj j l hj hl e), mem32 σ h32 j hj⟩, ⟨fun e => n6 (inj k l hk hl e), mem32 σ h32 k hk⟩, mem32 σ h32 l hl,
      by simp⟩
  obtain ⟨h1, h2⟩ := hA al rc R _ _ _ _ hN
  unfold app pick
  simp only
  rw [getD_map σ R i hi, getD_map σ R j hj, getD_map σ R k hk, getD_map σ R l hl, ← h1]
  generalize exec al rc R (P (σ.getD i 0) (σ.getD j 0) (σ.getD k 0) (σ.getD l 0)) = R' at *
  apply list_ext_g
  · simp
  · intro x hx
    have hx : x < σ.length := by simpa using hx
    rw [getD_map σ R' x hx, g_set _ _ _ _ (by simpa using hl), g_set _ _ _ _ (by simpa using hk), g_set _ _ _ _ (by simpa using hj), g_set _ _ _ _ (by simpa using hi),
      getD_map σ R x hx]
    by_cases e4 : l = x
    · subst e4; simp [g]
    by_cases e3 : k = x
    · subst e3; simp [g, e4]
    by_cases e2 : j = x
    · subst e2; simp [g, e3, e4]
    by_cases e1 : i = x
    · subst e1; simp [g, e2, e3, e4]
    simp only [e1, e2, e3, e4, if_false]
    exact h2 _ (fun e => e1 (inj x i hx hi e).symm) (fun e => e2 (inj x j hx hj e).symm) (fun e => e3 (inj x k hx hk e).symm)
      (fun e => e4 (inj x l hx hl e).symm) (mem32 σ h32 x hx)

theorem apps_abs {f : List U32 → List U32} {P : Nat → Nat → Nat → Nat → List Ins} (hA : Acts f P) (σ : List Nat) (hσ : σ.Nodup) (h32 : 32 ∉ σ)
    (al : List U32) (rc : Nat) : ∀ (ps : List (Nat × Nat × Nat × Nat)) (_ : ∀ p ∈ ps, Ok σ p) (R : Regs),
    σ.map (exec al rc R (ps.flatMap (pick σ P))) = ps.foldl (app f) (σ.map R)
  | [], _, R => rfl
  | p :: ps, h, R => by
    rw [List.flatMap_cons, exec_append, apps_abs hA σ hσ h32 al rc ps (fun q hq => h q (List.mem_cons_of_mem _ hq)), List.foldl_cons,
      app_abs hA σ hσ h32 p (h p List.mem_cons_self)]

theorem const_abs (σ : List Nat) (hσ : σ.Nodup) (alpha : List Nat) (al : List U32) (rc : Nat) (R : Regs) :
    ∀ (n : Nat) (_ : n ≤ σ.length) (i : Nat) (_ : i < σ.length),
    exec al rc R ((List.range n).map fun i => if i = 1 then Ins.xkr (σ.getD i 0) (alpha.getD i 0) else Ins.xk (σ.getD i 0) (alpha.getD i 0)) (σ.getD i 0) =
      if i < n then R (σ.getD i 0) ^^^ g al (alpha.getD i 0) ^^^ (if i = 1 then BitVec.ofNat 32 rc else 0) else R (σ.getD i 0)
  | 0, _, i, _ => by simp [exec]
  | n + 1, hn, i, hi => by
    rw [List.range_succ, List.map_append, exec_append, List.map_singleton]
    have ih := const_abs σ hσ alpha al rc R n (by omega)
    generalize exec al rc R _ = R' at *
    by_cases e : i = n
    · subst e
      have ih := ih i hi
      rw [if_neg (Nat.lt_irrefl i)] at ih
      rw [if_pos (show i < i + 1 by omega)]
      by_cases e1 : i = 1
      · simp only [e1, if_true, exec, List.foldl_cons, List.foldl_nil, exec1, upd_same]
        rw [e1] at ih
        rw [ih, BitVec.xor_assoc]; rfl
      · simp only [e1, if_false, exec, List.foldl_cons, List.foldl_nil, exec1, upd_same]
        rw [ih]; simp [g]
    · have hne : σ.getD i 0 ≠ σ.getD n 0 := fun h => e (nodup_getD σ hσ i n hi (by omega) h)
      have ih := ih i hi
      have : exec al rc R' [if n = 1 then Ins.xkr (σ.getD n 0) (alpha.getD n 0) else Ins.xk (σ.getD n 0) (alpha.getD n 0)] (σ.getD i 0) = R' (σ.getD i 0) := by
        by_cases e1 : n = 1
        · simp only [e1, if_true, exec, List.foldl_cons, List.foldl_nil, exec1]
          rw [e1] at hne; exact upd_ne _ _ _ _ hne
        · simp only [e1, if_false, exec, List.foldl_cons, List.foldl_nil, exec1]
          exact upd_ne _ _ _ _ hne
      rw [this, ih]
      by_cases h : i < n
      · rw [if_pos h, if_pos (show i < n + 1 by omega)]
      · rw [if_neg h, if_neg (show ¬ i < n + 1 by omega)]

theorem round_abs (v : Variant) (σ : List Nat) (hσ : σ.Nodup) (h32 : 32 ∉ σ) (hl : v.alpha.length = σ.length) (hc : ∀ p ∈ v.cols, Ok σ p)
    (hd : ∀ p ∈ v.diags, Ok σ p) (al : List U32) (rc : Nat) (R : Regs) :
    σ.map (exec al rc R (roundP σ v.alpha v.cols v.diags)) = Spec.Hamsi.round v al (σ.map R) rc := by
  unfold roundP Spec.Hamsi.round
  rw [exec_append, exec_append, apps_abs acts_l σ hσ h32 _ _ _ hd, apps_abs acts_sbox σ hσ h32 _ _ _ hc]
  congr 2
  apply list_ext_g
  · simp [addConst, hl]
  · intro i hi
    have hi : i < σ.length := by simpa using hi
    rw [getD_map _ _ _ hi, hl, const_abs σ hσ _ _ _ _ _ (Nat.le_refl _) i hi, if_pos hi, ← getD_map σ R i hi]
    unfold addConst
    simp only [g, List.getD_eq_getElem?_getD, List.getElem?_map, hl, List.getElem?_range hi, Option.map_some, Option.getD_some]

theorem rounds_abs (v : Variant) (σ : List Nat) (hσ : σ.Nodup) (h32 : 32 ∉ σ) (hl : v.alpha.length = σ.length) (hc : ∀ p ∈ v.cols, Ok σ p)
    (hd : ∀ p ∈ v.diags, Ok σ p) (al : List U32) : ∀ (rs : List Nat) (R : Regs),
    σ.map ((rs.map fun r => (r, roundP σ v.alpha v.cols v.diags)).foldl (fun R p => exec al p.1 R p.2) R) = rs.foldl (Spec.Hamsi.round v al) (σ.map R)
  | [], R => rfl
  | r :: rs, R => by
    rw [List.map_cons, List.foldl_cons, rounds_abs v σ hσ h32 hl hc hd al rs, round_abs v σ hσ h32 hl hc hd al r R, List.foldl_cons]

end Verif.Hamsi
