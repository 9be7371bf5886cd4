import Verif.Model.Plugin
import Verif.Props.C126_OneShot
import Verif.Props.C51_Facade
import Verif.Props.C52_Registry
/-
C130: plug-in algorithms: every loaded plug-in is found under its own identifier, whatever else is
loaded; the facade's SumBy and NewBy with the identifiers of package hash/hashing/esch.
-/
namespace Verif.Props
open Verif.Facade Verif.Plugin

/-- The identifier of the `i`-th plug-in loaded into a fresh process. -/
def pluginId (i : Nat) : U64 := BitVec.ofNat 64 (2 + i)

theorem pluginId_inj {i j : Nat} (hi : i < 2 ^ 64 - 2) (hj : j < 2 ^ 64 - 2) (h : pluginId i = pluginId j) : i = j := by
  have := congrArg BitVec.toNat h
  simp only [pluginId, BitVec.toNat_ofNat] at this
  rw [Nat.mod_eq_of_lt (by omega), Nat.mod_eq_of_lt (by omega)] at this
  omega

theorem loadAll_max {σ} (ps : List (Bytes × Algo σ)) : (loadAll initial ps).max = pluginId ps.length := by
  suffices h : ∀ (ps : List (Bytes × Algo σ)) (s : Tables σ), (loadAll s ps).max = s.max + BitVec.ofNat 64 ps.length by
    rw [h]
    simp only [initial, Registry.maxMode, pluginId]
    apply BitVec.eq_of_toNat_eq
    simp
  intro ps
  induction ps with
  | nil => intro s; simp [loadAll]
  | cons p ps ih =>
    intro s
    rw [loadAll, List.foldl_cons]
    have := ih (load s p)
    rw [loadAll] at this
    rw [this]
    simp only [load, Registry.generate, List.length_cons]
    apply BitVec.eq_of_toNat_eq
    simp only [BitVec.toNat_add, BitVec.toNat_ofNat]
    have h1 : BitVec.toNat (1 : U64) = 1 := rfl
    omega

/-- The tables after loading: entry `i` for the `i`-th plug-in and nothing else. -/
theorem loadAll_entries {σ} (ps : List (Bytes × Algo σ)) (hp : ps.length ≤ 2 ^ 64 - 2) (k : U64) :
    (loadAll initial ps).use k = (if 2 ≤ k.toNat then (ps[k.toNat - 2]?).map (·.2) else none) ∧
    (loadAll initial ps).names k = (if 2 ≤ k.toNat then (ps[k.toNat - 2]?).map (·.1) else none) := by
  revert hp
  induction ps using List.reverseRec with
  | nil => intro _; simp [loadAll, initial]
  | append_singleton ps p ih =>
    intro hp
    rw [List.length_append, List.length_singleton] at hp
    have ih := ih (by omega)
    have hm := loadAll_max ps
    have e : loadAll initial (ps ++ [p]) = load (loadAll initial ps) p := by
      unfold loadAll; rw [List.foldl_append]; rfl
    rw [e]
    simp only [load, Registry.generate, hm, ih]
    by_cases hk : k = pluginId ps.length
    · subst hk
      have : (pluginId ps.length).toNat = 2 + ps.length := by
        simp only [pluginId, BitVec.toNat_ofNat]
        exact Nat.mod_eq_of_lt (by omega)
      rw [if_pos rfl, if_pos rfl, this, if_pos (by omega), if_pos (by omega)]
      simp
    · rw [if_neg hk, if_neg hk]
      by_cases h2 : 2 ≤ k.toNat
      · have hne : k.toNat - 2 ≠ ps.length := by
          intro h
          apply hk
          apply BitVec.eq_of_toNat_eq
          simp only [pluginId, BitVec.toNat_ofNat]
          rw [Nat.mod_eq_of_lt (by omega)]
          omega
        rw [if_pos h2]
        by_cases hl : k.toNat - 2 < ps.length
        · rw [List.getElem?_append_left hl]; simp [h2]
        · rw [List.getElem?_append_right (by omega), List.getElem?_eq_none (by omega), List.getElem?_eq_none (by simp; omega)]
          simp
      · simp [h2]

/-- Every loaded plug-in keeps its own identifier: its name is what `String` returns, its algorithm is
what `SumBy` and `NewBy` use, whatever plug-ins are loaded before and after. -/
theorem C130_plugins {σ} (I : HashImpl σ) (ps : List (Bytes × Algo σ)) (hp : ps.length ≤ 2 ^ 64 - 2) (i : Nat) (p : Bytes × Algo σ) (hi : ps[i]? = some p) :
    modeString (loadAll initial ps) (pluginId i) = p.1 ∧
    (∀ t, (Call.sumBy (pluginId i).toNat).run I (reg (loadAll initial ps)) t = some { t with data := (p.2.sum t.data).1, err := (p.2.sum t.data).2 }) ∧
    (∀ t, (Call.newBy (pluginId i).toNat).run I (reg (loadAll initial ps)) t = some { t with hash := p.2.new.1, err := p.2.new.2 }) ∧
    ∀ j q, ps[j]? = some q → pluginId j = pluginId i → j = i := by
  have hl : i < ps.length := (List.getElem?_eq_some_iff.mp hi).1
  have ht : (pluginId i).toNat = 2 + i := by
    simp only [pluginId, BitVec.toNat_ofNat]
    exact Nat.mod_eq_of_lt (by omega)
  obtain ⟨h1, h2⟩ := loadAll_entries ps hp (pluginId i)
  rw [ht, if_pos (by omega), show 2 + i - 2 = i by omega, hi, Option.map_some] at h1 h2
  have hr : reg (loadAll initial ps) (pluginId i).toNat = some p.2 := by
    unfold reg
    rw [BitVec.ofNat_toNat, BitVec.setWidth_eq, h1]
  refine ⟨?_, fun t => ?_, fun t => ?_, fun j q hj he => ?_⟩
  · unfold modeString; rw [h2]
  · simp only [Call.run, hr]
  · simp only [Call.run, hr]
  · have := (List.getElem?_eq_some_iff.mp hj).1
    exact pluginId_inj (by omega) (by omega) he

/-- Every other mode is refused with an error that leaves data and object alone, and its `String` says so. -/
theorem C130_unknown {σ} (I : HashImpl σ) (ps : List (Bytes × Algo σ)) (hp : ps.length ≤ 2 ^ 64 - 2) (k : U64)
    (hk : ∀ i < ps.length, k ≠ pluginId i) :
    modeString (loadAll initial ps) k = ascii "unknown mode value " ++ ascii (toString k.toInt) ∧
    ∀ t, (Call.sumBy k.toNat).run I (reg (loadAll initial ps)) t = some { t with err := some (.unknownMode k.toNat) } ∧
      (Call.newBy k.toNat).run I (reg (loadAll initial ps)) t = some { t with err := some (.unknownMode k.toNat) } := by
  obtain ⟨h1, h2⟩ := loadAll_entries ps hp k
  have hn : 2 ≤ k.toNat → ps[k.toNat - 2]? = none := by
    intro h
    apply List.getElem?_eq_none
    rcases Nat.lt_or_ge (k.toNat - 2) ps.length with hl | hl
    · refine absurd ?_ (hk _ hl)
      apply BitVec.eq_of_toNat_eq
      simp only [pluginId, BitVec.toNat_ofNat]
      rw [Nat.mod_eq_of_lt (by omega)]
      omega
    · exact hl
  have h1 : (loadAll initial ps).use k = none := by
    rw [h1]
    by_cases h : 2 ≤ k.toNat
    · rw [if_pos h, hn h]; rfl
    · rw [if_neg h]
  have h2 : (loadAll initial ps).names k = none := by
    rw [h2]
    by_cases h : 2 ≤ k.toNat
    · rw [if_pos h, hn h]; rfl
    · rw [if_neg h]
  have hr : reg (loadAll initial ps) k.toNat = none := by
    unfold reg
    rw [BitVec.ofNat_toNat, BitVec.setWidth_eq, h1]
  refine ⟨by unfold modeString; rw [h2], fun t => ⟨?_, ?_⟩⟩
  · simp only [Call.run, hr]
  · simp only [Call.run, hr]

theorem objImpl_run (hs : Nat) (ops : List Op) (d : Esch.Digest) : objImpl.run (hs, d) ops = (Esch.impl hs).run d ops := by
  induction ops generalizing d with
  | nil => rfl
  | cons o ops ih =>
    cases o with
    | write p =>
      simp only [HashImpl.run, objImpl]
      cases (Esch.impl hs).write d p with
      | none => rfl
      | some r => simp only [Option.map_some]; exact congrArg _ (ih _)
    | sum b =>
      simp only [HashImpl.run, objImpl]
      cases (Esch.impl hs).sum d b with
      | none => rfl
      | some r => simp only [Option.map_some]; exact congrArg _ (ih _)
    | reset => simp only [HashImpl.run, objImpl]; exact congrArg _ (ih _)
    | size => simp only [HashImpl.run, objImpl]; exact congrArg _ (ih _)
    | blockSize => simp only [HashImpl.run, objImpl]; exact congrArg _ (ih _)

theorem getElem?_mid {α} (a b c : List α) (i : Nat) (hi : i < b.length) : (a ++ b ++ c)[a.length + i]? = b[i]? := by
  rw [List.getElem?_append_left (by rw [List.length_append]; omega), List.getElem?_append_right (by omega), Nat.add_sub_cancel_left]

/-- `SumBy(ESCH256)` and `SumBy(ESCH384)` replace the data by the Esch digest of the data and clear the
error; `NewBy`, one `Write` and `Sum(b)` leave `b` and the Esch digest of the bytes written.  Package
hash/hashing/esch may be loaded among any other plug-ins, `before` and `after`. -/
theorem C130_esch (before after : List (Bytes × Algo Obj)) (hp : before.length + after.length < 2 ^ 64 - 4) :
    let T := reg (loadAll initial (before ++ eschPackage ++ after))
    let ESCH256 := (pluginId before.length).toNat
    let ESCH384 := (pluginId (before.length + 1)).toNat
    ∀ t : Facade Obj,
      (Call.sumBy ESCH256).run objImpl T t = some { t with data := Spec.Esch.hash Spec.Esch.esch256 t.data, err := none } ∧
      (Call.sumBy ESCH384).run objImpl T t = some { t with data := Spec.Esch.hash Spec.Esch.esch384 t.data, err := none } ∧
      ∀ p b, (∃ u, chain objImpl T [.newBy ESCH256, .write p, .sum b] t = some u ∧ u.data = b ++ Spec.Esch.hash Spec.Esch.esch256 p ∧ u.err = none) ∧
        ∃ u, chain objImpl T [.newBy ESCH384, .write p, .sum b] t = some u ∧ u.data = b ++ Spec.Esch.hash Spec.Esch.esch384 p ∧ u.err = none := by
  intro T ESCH256 ESCH384 t
  have hl : (before ++ eschPackage ++ after).length ≤ 2 ^ 64 - 2 := by
    simp only [List.length_append, eschPackage, List.length_cons, List.length_nil]; omega
  obtain ⟨-, s1, n1, -⟩ := C130_plugins objImpl _ hl before.length (ascii "ESCH256", esch256) (getElem?_mid before eschPackage after 0 (by decide))
  obtain ⟨-, s2, n2, -⟩ := C130_plugins objImpl _ hl (before.length + 1) (ascii "ESCH384", esch384) (getElem?_mid before eschPackage after 1 (by decide))
  have key : ∀ (name hs : Nat) (d : Esch.Digest) (_ : hs = 256 ∨ hs = 384) (_ : Esch.new hs = some d)
      (_ : ∀ t, (Call.newBy name).run objImpl T t = some { t with hash := some (hs, d), err := none }) (p b : Bytes),
      ∃ u, chain objImpl T [.newBy name, .write p, .sum b] t = some u ∧ u.data = b ++ (eschSpec hs).H p ∧ u.err = none := by
    intro name hs d h hd hn p b
    have hr := C29_esch_oneshot hs d h hd p b
    rw [← objImpl_run] at hr
    simp only [HashImpl.run] at hr
    cases e : objImpl.write (hs, d) p with
    | none => rw [e] at hr; simp at hr
    | some x =>
      rw [e] at hr
      simp only [List.cons.injEq] at hr
      cases e2 : objImpl.sum x.1 b with
      | none => rw [e2] at hr; simp at hr
      | some y =>
        rw [e2] at hr
        simp only [List.cons.injEq, Out.bytes.injEq, and_true] at hr
        refine ⟨{ t with hash := some y.1, data := y.2, err := none }, ?_, hr.2, rfl⟩
        simp only [chain, hn, Option.bind_some]
        simp only [Call.run, Option.bind_eq_bind, Option.bind_some, e, e2]
  obtain ⟨d1, hd1⟩ := Option.isSome_iff_exists.mp ((C29_esch_new 256).mpr (Or.inl rfl))
  obtain ⟨d2, hd2⟩ := Option.isSome_iff_exists.mp ((C29_esch_new 384).mpr (Or.inr rfl))
  refine ⟨?_, ?_, fun p b => ⟨?_, ?_⟩⟩
  · rw [s1 t]; simp only [esch256, C126_eschSum256, Option.getD_some]
  · rw [s2 t]; simp only [esch384, C126_eschSum384, Option.getD_some]
  · exact key _ 256 d1 (Or.inl rfl) hd1 (fun t => by rw [n1 t]; simp only [esch256, hd1, Option.map_some]) p b
  · exact key _ 384 d2 (Or.inr rfl) hd2 (fun t => by rw [n2 t]; simp only [esch384, hd2, Option.map_some]) p b

/-- `ESCH256.String()` and `ESCH384.String()`. -/
theorem C130_esch_names (before after : List (Bytes × Algo Obj)) (hp : before.length + after.length < 2 ^ 64 - 4) :
    modeString (loadAll initial (before ++ eschPackage ++ after)) (pluginId before.length) = ascii "ESCH256" ∧
    modeString (loadAll initial (before ++ eschPackage ++ after)) (pluginId (before.length + 1)) = ascii "ESCH384" := by
  have hl : (before ++ eschPackage ++ after).length ≤ 2 ^ 64 - 2 := by
    simp only [List.length_append, eschPackage, List.length_cons, List.length_nil]; omega
  exact ⟨(C130_plugins objImpl _ hl before.length (ascii "ESCH256", esch256) (getElem?_mid before eschPackage after 0 (by decide))).1,
    (C130_plugins objImpl _ hl (before.length + 1) (ascii "ESCH384", esch384) (getElem?_mid before eschPackage after 1 (by decide))).1⟩

-- the hypotheses can be met: package esch alone, and after another plug-in
example : (0 : Nat) + 0 < 2 ^ 64 - 4 := by decide
example : modeString (loadAll initial eschPackage) 2 = ascii "ESCH256" ∧ modeString (loadAll initial eschPackage) 3 = ascii "ESCH384" :=
  C130_esch_names [] [] (by decide)
example : modeString (loadAll initial eschPackage) 4 = ascii "unknown mode value 4" := by
  have := (C130_unknown objImpl eschPackage (by decide) 4 (by decide)).1
  rw [this]; decide

end Verif.Props
