import Verif.Spec.FacadeVars
import Verif.Props.C51_Facade
/-
C140: several variables that hold facade values.
-/
namespace Verif.Props
open Verif.FacadeVars Verif.Spec.FacadeVars Verif.Facade
namespace FV

variable {σ κ : Type} {I : HashImpl σ} {h₀ : κ → σ}

/-- What a statement changes. -/
structure Eff (σ : Type) where
  mem : Option (Nat × Bytes) := none
  obj : Option (Nat × σ) := none
  var : Option (Nat × Val) := none

def updO {α} (f : Nat → α) : Option (Nat × α) → Nat → α
  | none => f
  | some (i, x) => upd f i x

def Eff.apply (e : Eff σ) (s : St σ) : St σ :=
  { clock := s.clock + 1, mem := updO s.mem e.mem, obj := updO s.obj (e.obj.map fun x => (x.1, some x.2)), var := updO s.var e.var }

def eff (I : HashImpl σ) (h₀ : κ → σ) (s : St σ) : Stmt κ → Eff σ × Res
  | .fromBytes dst src p => ({ mem := some (s.clock, p), var := some (dst, { s.var src with data := s.clock }) }, .done)
  | .fromData dst src w => ({ var := some (dst, { s.var src with data := (s.var w).data }) }, .done)
  | .fromHex dst src t => ({ mem := some (s.clock, (hexDecode t).1), var := some (dst, { s.var src with data := s.clock, err := (hexDecode t).2 }) }, .done)
  | .edit src v => ({ mem := some ((s.var src).data, goCopy (s.mem (s.var src).data) 0 v) }, .done)
  | .new dst src k => ({ obj := some (s.clock, h₀ k), var := some (dst, { s.var src with hash := some s.clock }) }, .done)
  | .digest dst src f => ({ mem := some (s.clock, f (s.mem (s.var src).data)), var := some (dst, { s.var src with data := s.clock }) }, .done)
  | .write dst src p => match s.object (s.var src) with
    | none => ({}, .panicked)
    | some (j, h) => match I.write h p with
      | none => ({}, .panicked)
      | some (h, _) => ({ obj := some (j, h), var := some (dst, s.var src) }, .done)
  | .sum dst src b => match s.object (s.var src) with
    | none => ({}, .panicked)
    | some (j, h) => match I.sum h b with
      | none => ({}, .panicked)
      | some (h, d) => ({ obj := some (j, h), mem := some (s.clock, d), var := some (dst, { s.var src with data := s.clock }) }, .done)
  | .reset dst src => match s.object (s.var src) with
    | none => ({}, .panicked)
    | some (j, h) => ({ obj := some (j, I.reset h), var := some (dst, s.var src) }, .done)
  | .toBytes src => ({}, .bytes (s.mem (s.var src).data))
  | .error src => ({}, .err (s.var src).err)
  | .size src => match s.object (s.var src) with
    | none => ({}, .panicked)
    | some (_, h) => ({}, .num (I.size h))
  | .blockSize src => match s.object (s.var src) with
    | none => ({}, .panicked)
    | some (_, h) => ({}, .num (I.blockSize h))
  | .skip => ({}, .done)

theorem step_eff (s : St σ) (c : Stmt κ) : s.step I h₀ c = ((eff I h₀ s c).1.apply s, (eff I h₀ s c).2) := by
  unfold St.step
  cases c <;> simp only [St.exec, eff] <;> (repeat' split) <;> first | rfl | simp_all [Eff.apply, updO]

/-- What may be changed by a statement with the variables `vs`. -/
structure Local (vs : List Nat) (s : St σ) (e : Eff σ) : Prop where
  mem : ∀ i x, e.mem = some (i, x) → (i = s.clock ∨ ∃ v ∈ vs, i = (s.var v).data) ∧ (i ≠ s.clock → s.mem i = [] → x = [])
  obj : ∀ j x, e.obj = some (j, x) → j = s.clock ∨ ∃ v ∈ vs, (s.var v).hash = some j
  dst : ∀ d x, e.var = some (d, x) → d ∈ vs
  data : ∀ d x, e.var = some (d, x) → (x.data = s.clock ∧ ∃ y, e.mem = some (s.clock, y)) ∨ ∃ v ∈ vs, x.data = (s.var v).data
  hash : ∀ d x j, e.var = some (d, x) → x.hash = some j → (j = s.clock ∧ ∃ y, e.obj = some (s.clock, y)) ∨ ∃ v ∈ vs, (s.var v).hash = some j

theorem object_hash {s : St σ} {v : Val} {j : Nat} {h : σ} (e : s.object v = some (j, h)) : v.hash = some j ∧ s.obj j = some h := by
  unfold St.object at e
  cases hv : v.hash with
  | none => simp [hv] at e
  | some i =>
    cases ho : s.obj i with
    | none => simp [hv, ho] at e
    | some x =>
      simp [hv, ho] at e
      obtain ⟨rfl, rfl⟩ := e
      exact ⟨rfl, ho⟩

theorem goCopy_nil (v : Bytes) : goCopy [] 0 v = [] := by
  simp [goCopy]

theorem eff_local (s : St σ) (c : Stmt κ) : Local (vars c) s (eff I h₀ s c).1 := by
  cases c <;> simp only [eff, vars] <;> (repeat' split) <;> constructor <;>
    simp_all [goCopy_nil] <;> first
    | (intros; subst_vars; simp_all; done)
    | exact Or.inr (Or.inr (object_hash (by assumption)).1)

/-- Two states look the same through the variables `vs`. -/
structure Agree (vs : List Nat) (s t : St σ) : Prop where
  clock : s.clock = t.clock
  var : ∀ v ∈ vs, s.var v = t.var v
  mem : ∀ v ∈ vs, s.mem (s.var v).data = t.mem (s.var v).data
  obj : ∀ v ∈ vs, ∀ j, (s.var v).hash = some j → s.obj j = t.obj j

theorem Agree.object {vs} {s t : St σ} (h : Agree vs s t) {v : Nat} (hv : v ∈ vs) : s.object (s.var v) = t.object (s.var v) := by
  unfold St.object
  cases e : (s.var v).hash with
  | none => rfl
  | some j => simp [h.obj v hv j e]

theorem eff_agree {s t : St σ} (c : Stmt κ) (h : Agree (vars c) s t) : eff I h₀ s c = eff I h₀ t c := by
  cases c with
  | fromBytes dst src p => simp only [eff, ← h.clock, ← h.var src (by simp [vars])]
  | fromData dst src w => simp only [eff, ← h.var src (by simp [vars]), ← h.var w (by simp [vars])]
  | fromHex dst src t => simp only [eff, ← h.clock, ← h.var src (by simp [vars])]
  | edit src v => simp only [eff, ← h.var src (by simp [vars]), ← h.mem src (by simp [vars])]
  | new dst src k => simp only [eff, ← h.clock, ← h.var src (by simp [vars])]
  | digest dst src f => simp only [eff, ← h.clock, ← h.var src (by simp [vars]), ← h.mem src (by simp [vars])]
  | write dst src p => simp only [eff, ← h.var src (by simp [vars])]; rw [h.object (v := src) (by simp [vars])]
  | sum dst src b => simp only [eff, ← h.var src (by simp [vars]), ← h.clock]; rw [h.object (v := src) (by simp [vars])]
  | reset dst src => simp only [eff, ← h.var src (by simp [vars])]; rw [h.object (v := src) (by simp [vars])]
  | toBytes src => simp only [eff, ← h.var src (by simp [vars]), ← h.mem src (by simp [vars])]
  | error src => simp only [eff, ← h.var src (by simp [vars])]
  | size src => simp only [eff, ← h.var src (by simp [vars])]; rw [h.object (v := src) (by simp [vars])]
  | blockSize src => simp only [eff, ← h.var src (by simp [vars])]; rw [h.object (v := src) (by simp [vars])]
  | skip => rfl

/-- Everything the variables refer to has been made before; array 0 is the nil slice. -/
structure Fresh (s : St σ) : Prop where
  pos : 0 < s.clock
  nil : s.mem 0 = []
  data : ∀ v, (s.var v).data < s.clock
  hash : ∀ v j, (s.var v).hash = some j → j < s.clock

/-- The variables in `A` and the others have nothing in common. -/
structure Apart (A : Nat → Prop) (s : St σ) : Prop where
  data : ∀ v w, A v → ¬ A w → (s.var v).data = (s.var w).data → (s.var v).data = 0
  hash : ∀ v w j, A v → ¬ A w → (s.var v).hash = some j → (s.var w).hash ≠ some j

theorem updO_ne {α} {f : Nat → α} {o : Option (Nat × α)} {i : Nat} (h : ∀ x, o ≠ some (i, x)) : updO f o i = f i := by
  cases o with
  | none => rfl
  | some y =>
    have : i ≠ y.1 := fun e => h y.2 (by rw [e])
    simp [updO, upd, this]

theorem updO_cases {α} (f : Nat → α) (o : Option (Nat × α)) (i : Nat) :
    (∃ x, o = some (i, x) ∧ updO f o i = x) ∨ ((∀ x, o ≠ some (i, x)) ∧ updO f o i = f i) := by
  cases o with
  | none => exact Or.inr ⟨by simp, rfl⟩
  | some y =>
    by_cases e : i = y.1
    · exact Or.inl ⟨y.2, by rw [e], by simp [updO, upd, e]⟩
    · refine Or.inr ⟨fun x h => e ?_, by simp [updO, upd, e]⟩
      cases h; rfl

theorem Fresh.apply {vs} {s : St σ} {e : Eff σ} (h : Fresh s) (hl : Local vs s e) : Fresh (e.apply s) where
  pos := Nat.succ_pos _
  nil := by
    show updO s.mem e.mem 0 = []
    rcases updO_cases s.mem e.mem 0 with ⟨x, hx, hu⟩ | ⟨_, hu⟩
    · rw [hu]; exact (hl.mem 0 x hx).2 (by have := h.pos; omega) h.nil
    · rw [hu]; exact h.nil
  data := fun v => by
    show (updO s.var e.var v).data < s.clock + 1
    rcases updO_cases s.var e.var v with ⟨x, hx, hu⟩ | ⟨_, hu⟩
    · rw [hu]
      rcases hl.data v x hx with ⟨h1, _⟩ | ⟨w, _, h1⟩
      · omega
      · have := h.data w; omega
    · rw [hu]; have := h.data v; omega
  hash := fun v j => by
    show (updO s.var e.var v).hash = some j → j < s.clock + 1
    rcases updO_cases s.var e.var v with ⟨x, hx, hu⟩ | ⟨_, hu⟩
    · rw [hu]; intro hj
      rcases hl.hash v x j hx hj with ⟨h1, _⟩ | ⟨w, _, h1⟩
      · omega
      · have := h.hash w j h1; omega
    · rw [hu]; intro hj; have := h.hash v j hj; omega

/-- A statement within `A` keeps the variables apart. -/
theorem Apart.apply {A : Nat → Prop} {vs} {s : St σ} {e : Eff σ} (hf : Fresh s) (h : Apart A s) (hl : Local vs s e) (hA : ∀ v ∈ vs, A v) :
    Apart A (e.apply s) where
  data := fun v w hv hw => by
    show (updO s.var e.var v).data = (updO s.var e.var w).data → (updO s.var e.var v).data = 0
    have ew : updO s.var e.var w = s.var w := updO_ne fun x hx => hw (hA w (hl.dst w x hx))
    rw [ew]
    rcases updO_cases s.var e.var v with ⟨x, hx, hu⟩ | ⟨_, hu⟩
    · rw [hu]; intro he
      rcases hl.data v x hx with ⟨h1, _⟩ | ⟨u, hu, h1⟩
      · have := hf.data w; omega
      · rw [h1] at he ⊢; exact h.data u w (hA u hu) hw he
    · rw [hu]; exact h.data v w hv hw
  hash := fun v w j hv hw => by
    show (updO s.var e.var v).hash = some j → (updO s.var e.var w).hash ≠ some j
    have ew : updO s.var e.var w = s.var w := updO_ne fun x hx => hw (hA w (hl.dst w x hx))
    rw [ew]
    rcases updO_cases s.var e.var v with ⟨x, hx, hu⟩ | ⟨_, hu⟩
    · rw [hu]; intro hj hw'
      rcases hl.hash v x j hx hj with ⟨h1, _⟩ | ⟨u, hu, h1⟩
      · have := hf.hash w j hw'; omega
      · exact h.hash u w j (hA u hu) hw h1 hw'
    · rw [hu]; exact h.hash v w j hv hw

theorem Apart.symm {A : Nat → Prop} {s : St σ} (h : Apart A s) : Apart (fun v => ¬ A v) s where
  data := fun v w hv hw e => by rw [e]; exact h.data w v (Classical.not_not.1 hw) hv e.symm
  hash := fun v w j hv hw e e' => h.hash w v j (Classical.not_not.1 hw) hv e' e

/-- The full run and the run of the program without the others' statements, seen through the variables in `A`. -/
structure Inv (A : Nat → Prop) (s t : St σ) : Prop where
  freshS : Fresh s
  freshT : Fresh t
  apart : Apart A s
  clock : s.clock = t.clock
  var : ∀ v, A v → s.var v = t.var v
  mem : ∀ v, A v → s.mem (s.var v).data = t.mem (s.var v).data
  obj : ∀ v, A v → ∀ j, (s.var v).hash = some j → s.obj j = t.obj j

theorem Inv.agree {A : Nat → Prop} {s t : St σ} (h : Inv A s t) {vs : List Nat} (hA : ∀ v ∈ vs, A v) : Agree vs s t :=
  ⟨h.clock, fun v hv => h.var v (hA v hv), fun v hv => h.mem v (hA v hv), fun v hv => h.obj v (hA v hv)⟩

/-- Both do a statement within `A`. -/
theorem Inv.both {A : Nat → Prop} {vs} {s t : St σ} {e : Eff σ} (h : Inv A s t) (hl : Local vs s e) (hl' : Local vs t e) (hA : ∀ v ∈ vs, A v) :
    Inv A (e.apply s) (e.apply t) where
  freshS := h.freshS.apply hl
  freshT := h.freshT.apply hl'
  apart := h.apart.apply h.freshS hl hA
  clock := congrArg (· + 1) h.clock
  var := fun v hv => by
    show updO s.var e.var v = updO t.var e.var v
    rcases updO_cases s.var e.var v with ⟨x, hx, hu⟩ | ⟨hn, hu⟩
    · rw [hu, hx]; simp [updO, upd]
    · rw [hu, updO_ne hn]; exact h.var v hv
  mem := fun v hv => by
    show updO s.mem e.mem (updO s.var e.var v).data = updO t.mem e.mem (updO s.var e.var v).data
    generalize hd : (updO s.var e.var v).data = i
    rcases updO_cases s.mem e.mem i with ⟨x, hx, hu⟩ | ⟨hn, hu⟩
    · rw [hu, hx]; simp [updO, upd]
    · rw [hu, updO_ne hn]
      rcases updO_cases s.var e.var v with ⟨x, hx, hu'⟩ | ⟨hn', hu'⟩
      · rw [hu'] at hd
        rcases hl.data v x hx with ⟨h1, y, hy⟩ | ⟨w, hw, h1⟩
        · exact absurd (by rw [hy, ← hd, h1]) (hn y)
        · rw [← hd, h1]; exact h.mem w (hA w hw)
      · rw [hu'] at hd; rw [← hd]; exact h.mem v hv
  obj := fun v hv j => by
    show (updO s.var e.var v).hash = some j → updO s.obj (e.obj.map fun x => (x.1, some x.2)) j = updO t.obj (e.obj.map fun x => (x.1, some x.2)) j
    intro hj
    rcases updO_cases s.obj (e.obj.map fun x => (x.1, some x.2)) j with ⟨x, hx, hu⟩ | ⟨hn, hu⟩
    · rw [hu, hx]; simp [updO, upd]
    · rw [hu, updO_ne hn]
      rcases updO_cases s.var e.var v with ⟨x, hx, hu'⟩ | ⟨hn', hu'⟩
      · rw [hu'] at hj
        rcases hl.hash v x j hx hj with ⟨h1, y, hy⟩ | ⟨w, hw, h1⟩
        · exact absurd (by rw [hy, h1]; rfl) (hn (some y))
        · exact h.obj w (hA w hw) j h1
      · rw [hu'] at hj; exact h.obj v hv j hj

/-- The full program does a statement of the others. -/
theorem Inv.other {A : Nat → Prop} {vs} {s t : St σ} {e : Eff σ} (h : Inv A s t) (hl : Local vs s e) (hA : ∀ v ∈ vs, ¬ A v) :
    Inv A (e.apply s) (Eff.apply {} t) where
  freshS := h.freshS.apply hl
  freshT := h.freshT.apply (vs := []) (by constructor <;> simp)
  apart := by
    have := (h.apart.symm.apply h.freshS hl hA).symm
    simpa only [Classical.not_not] using this
  clock := congrArg (· + 1) h.clock
  var := fun v hv => by
    show updO s.var e.var v = t.var v
    rw [updO_ne fun x hx => hA v (hl.dst v x hx) hv]; exact h.var v hv
  mem := fun v hv => by
    show updO s.mem e.mem (updO s.var e.var v).data = t.mem (updO s.var e.var v).data
    rw [updO_ne fun x hx => hA v (hl.dst v x hx) hv]
    rcases updO_cases s.mem e.mem (s.var v).data with ⟨x, hx, hu⟩ | ⟨hn, hu⟩
    · rw [hu]
      obtain ⟨h1, h2⟩ := hl.mem _ x hx
      rcases h1 with h1 | ⟨w, hw, h1⟩
      · have := h.freshS.data v; omega
      · have h0 := h.apart.data v w hv (hA w hw) h1
        rw [h0] at h2 ⊢
        rw [h2 (by have := h.freshS.pos; omega) h.freshS.nil, h.freshT.nil]
    · rw [hu]; exact h.mem v hv
  obj := fun v hv j => by
    show (updO s.var e.var v).hash = some j → updO s.obj (e.obj.map fun x => (x.1, some x.2)) j = t.obj j
    rw [updO_ne fun x hx => hA v (hl.dst v x hx) hv]
    intro hj
    rw [updO_ne]
    · exact h.obj v hv j hj
    · intro x hx
      cases ho : e.obj with
      | none => rw [ho] at hx; simp at hx
      | some y =>
        rw [ho] at hx
        simp at hx
        rcases hl.obj y.1 y.2 ho with h1 | ⟨w, hw, h1⟩
        · have := h.freshS.hash v j hj; omega
        · exact h.apart.hash v w j hv (hA w hw) hj (by rw [h1, hx.1])

theorem run_inv {A : Nat → Prop} (P : List (Stmt κ)) (hP : ∀ c ∈ P, Within A c ∨ Within (fun v => ¬ A v) c) :
    ∀ (s t : St σ), Inv A s t → ∀ (i : Nat) (c : Stmt κ), P[i]? = some c → Within A c → (run I h₀ s P)[i]? = (run I h₀ t (mask A P))[i]? := by
  induction P with
  | nil => intro s t _ i c hc; simp at hc
  | cons c P ih =>
    intro s t hI i c' hc hA
    have ih := ih fun c hc => hP c (List.mem_cons_of_mem _ hc)
    have hm : mask A (c :: P) = (open Classical in if Within A c then c else .skip) :: mask A P := rfl
    rw [hm]
    simp only [run, step_eff]
    by_cases hcA : Within A c
    · rw [if_pos hcA]
      have he : eff I h₀ s c = eff I h₀ t c := eff_agree c (hI.agree hcA)
      have hI' : Inv A ((eff I h₀ s c).1.apply s) ((eff I h₀ t c).1.apply t) := by
        rw [← he]; exact hI.both (eff_local s c) (by rw [he]; exact eff_local t c) hcA
      cases i with
      | zero => simp only [List.getElem?_cons_zero, he]
      | succ i => simp only [List.getElem?_cons_succ] at hc ⊢; exact ih _ _ hI' i c' hc hA
    · rw [if_neg hcA]
      have hcB := (hP c (List.mem_cons_self ..)).resolve_left hcA
      have hI' : Inv A ((eff I h₀ s c).1.apply s) ((eff I h₀ t (.skip : Stmt κ)).1.apply t) := hI.other (eff_local s c) hcB
      cases i with
      | zero =>
        simp only [List.getElem?_cons_zero, Option.some.injEq] at hc
        rw [← hc] at hA; exact absurd hA hcA
      | succ i => simp only [List.getElem?_cons_succ] at hc ⊢; exact ih _ _ hI' i c' hc hA

theorem start_inv (A : Nat → Prop) : Inv A (start : St σ) start where
  freshS := ⟨Nat.one_pos, rfl, fun _ => Nat.one_pos, fun _ _ h => by simp [start] at h⟩
  freshT := ⟨Nat.one_pos, rfl, fun _ => Nat.one_pos, fun _ _ h => by simp [start] at h⟩
  apart := ⟨fun _ _ _ _ _ => rfl, fun _ _ _ _ _ h => by simp [start] at h⟩
  clock := rfl
  var := fun _ _ => rfl
  mem := fun _ _ => rfl
  obj := fun _ _ _ _ => rfl

/-! ### Against ideal objects -/

/-- The object has the behaviour of the ideal one. -/
def Like (I : HashImpl σ) (S : κ → HashSpec) : Option σ → Option (κ × Bytes) → Prop
  | none, none => True
  | some h, some (k, m) => ∀ ops, I.run h ops = (S k).run m ops
  | _, _ => False

structure Same (I : HashImpl σ) (S : κ → HashSpec) (s : St σ) (t : St (κ × Bytes)) : Prop where
  clock : s.clock = t.clock
  mem : s.mem = t.mem
  var : s.var = t.var
  obj : ∀ j, Like I S (s.obj j) (t.obj j)

theorem Same.object {S : κ → HashSpec} {s : St σ} {t : St (κ × Bytes)} (hs : Same I S s t) (v : Val) :
    (s.object v = none ∧ t.object v = none) ∨
      ∃ j h k m, s.object v = some (j, h) ∧ t.object v = some (j, (k, m)) ∧ ∀ ops, I.run h ops = (S k).run m ops := by
  unfold St.object
  cases e : v.hash with
  | none => exact Or.inl ⟨rfl, rfl⟩
  | some j =>
    have h := hs.obj j
    cases e1 : s.obj j with
    | none => cases e2 : t.obj j with
      | none => exact Or.inl (by simp [e1, e2])
      | some y => rw [e1, e2] at h; exact h.elim
    | some x => cases e2 : t.obj j with
      | none => rw [e1, e2] at h; exact h.elim
      | some y =>
        rw [e1, e2] at h
        exact Or.inr ⟨j, x, y.1, y.2, by simp [e1], by simp [e2], h⟩

theorem Same.upd {S : κ → HashSpec} {s : St σ} {t : St (κ × Bytes)} (hs : Same I S s t) (j : Nat) (h : σ) (k : κ) (m : Bytes)
    (hl : ∀ ops, I.run h ops = (S k).run m ops) (i : Nat) :
    Like I S (FacadeVars.upd s.obj j (some h) i) (FacadeVars.upd t.obj j (some (k, m)) i) := by
  unfold FacadeVars.upd
  by_cases e : i = j
  · simp only [if_pos e]; exact hl
  · simp only [if_neg e]; exact hs.obj i

theorem like_write {S : HashSpec} {h : σ} {m : Bytes} (hl : ∀ ops, I.run h ops = S.run m ops) (p : Bytes) :
    ∃ h' n, I.write h p = some (h', n) ∧ ∀ ops, I.run h' ops = S.run (m ++ p) ops := by
  cases e : I.write h p with
  | none => have := hl [.write p]; simp [HashImpl.run, HashSpec.run, e] at this
  | some x =>
    refine ⟨x.1, x.2, rfl, fun ops => ?_⟩
    have := hl (.write p :: ops)
    simp [HashImpl.run, HashSpec.run, e] at this
    exact this.2

theorem like_sum {S : HashSpec} {h : σ} {m : Bytes} (hl : ∀ ops, I.run h ops = S.run m ops) (b : Bytes) :
    ∃ h', I.sum h b = some (h', b ++ S.H m) ∧ ∀ ops, I.run h' ops = S.run m ops := by
  cases e : I.sum h b with
  | none => have := hl [.sum b]; simp [HashImpl.run, HashSpec.run, e] at this
  | some x =>
    refine ⟨x.1, ?_, fun ops => ?_⟩
    · have := hl [.sum b]
      simp [HashImpl.run, HashSpec.run, e] at this
      rw [← this]
    · have := hl (.sum b :: ops)
      simp [HashImpl.run, HashSpec.run, e] at this
      exact this.2

theorem Same.step {S : κ → HashSpec} (hr : ∀ k, Refines I (h₀ k) (S k)) {s : St σ} {t : St (κ × Bytes)} (hs : Same I S s t) (c : Stmt κ) :
    (s.step I h₀ c).2 = (t.step (ideal S) (fun k => (k, [])) c).2 ∧
      Same I S (s.step I h₀ c).1 (t.step (ideal S) (fun k => (k, [])) c).1 := by
  obtain ⟨c1, m1, o1, v1⟩ := s
  obtain ⟨c2, m2, o2, v2⟩ := t
  obtain ⟨h1, h2, h3, h4⟩ := hs
  dsimp only at h1 h2 h3 h4
  subst h1 h2 h3
  have hs : Same I S ⟨c1, m1, o1, v1⟩ ⟨c1, m1, o2, v1⟩ := ⟨rfl, rfl, rfl, h4⟩
  cases c with
  | write dst src p =>
    rcases hs.object (v1 src) with ⟨e1, e2⟩ | ⟨j, h, k, m, e1, e2, hl⟩
    · simp only [St.step, St.exec, e1, e2]; exact ⟨trivial, rfl, rfl, rfl, h4⟩
    · obtain ⟨h', n, e, hl'⟩ := like_write hl p
      simp only [St.step, St.exec, e1, e2, e, ideal]
      exact ⟨trivial, rfl, rfl, rfl, hs.upd j h' k _ hl'⟩
  | sum dst src b =>
    rcases hs.object (v1 src) with ⟨e1, e2⟩ | ⟨j, h, k, m, e1, e2, hl⟩
    · simp only [St.step, St.exec, e1, e2]; exact ⟨trivial, rfl, rfl, rfl, h4⟩
    · obtain ⟨h', e, hl'⟩ := like_sum hl b
      simp only [St.step, St.exec, e1, e2, e, ideal]
      exact ⟨trivial, rfl, rfl, rfl, hs.upd j h' k _ hl'⟩
  | reset dst src =>
    rcases hs.object (v1 src) with ⟨e1, e2⟩ | ⟨j, h, k, m, e1, e2, hl⟩
    · simp only [St.step, St.exec, e1, e2]; exact ⟨trivial, rfl, rfl, rfl, h4⟩
    · simp only [St.step, St.exec, e1, e2, ideal]
      refine ⟨trivial, rfl, rfl, rfl, hs.upd j _ k _ fun ops => ?_⟩
      have := hl (.reset :: ops)
      simp [HashImpl.run, HashSpec.run] at this
      exact this
  | size src =>
    rcases hs.object (v1 src) with ⟨e1, e2⟩ | ⟨j, h, k, m, e1, e2, hl⟩
    · simp only [St.step, St.exec, e1, e2]; exact ⟨trivial, rfl, rfl, rfl, h4⟩
    · simp only [St.step, St.exec, e1, e2, ideal]
      have := hl [.size]
      simp [HashImpl.run, HashSpec.run] at this
      exact ⟨by rw [this], rfl, rfl, rfl, h4⟩
  | blockSize src =>
    rcases hs.object (v1 src) with ⟨e1, e2⟩ | ⟨j, h, k, m, e1, e2, hl⟩
    · simp only [St.step, St.exec, e1, e2]; exact ⟨trivial, rfl, rfl, rfl, h4⟩
    · simp only [St.step, St.exec, e1, e2, ideal]
      have := hl [.blockSize]
      simp [HashImpl.run, HashSpec.run] at this
      exact ⟨by rw [this], rfl, rfl, rfl, h4⟩
  | new dst src k =>
    simp only [St.step, St.exec]
    exact ⟨trivial, rfl, rfl, rfl, hs.upd _ _ k _ (hr k)⟩
  | fromBytes dst src p => simp only [St.step, St.exec]; exact ⟨trivial, rfl, rfl, rfl, h4⟩
  | fromData dst src w => simp only [St.step, St.exec]; exact ⟨trivial, rfl, rfl, rfl, h4⟩
  | fromHex dst src x => simp only [St.step, St.exec]; exact ⟨trivial, rfl, rfl, rfl, h4⟩
  | edit src v => simp only [St.step, St.exec]; exact ⟨trivial, rfl, rfl, rfl, h4⟩
  | digest dst src f => simp only [St.step, St.exec]; exact ⟨trivial, rfl, rfl, rfl, h4⟩
  | toBytes src => simp only [St.step, St.exec]; exact ⟨trivial, rfl, rfl, rfl, h4⟩
  | error src => simp only [St.step, St.exec]; exact ⟨trivial, rfl, rfl, rfl, h4⟩
  | skip => simp only [St.step, St.exec]; exact ⟨trivial, rfl, rfl, rfl, h4⟩

theorem Same.run {S : κ → HashSpec} (hr : ∀ k, Refines I (h₀ k) (S k)) (P : List (Stmt κ)) :
    ∀ {s : St σ} {t : St (κ × Bytes)}, Same I S s t → FacadeVars.run I h₀ s P = FacadeVars.run (ideal S) (fun k => (k, [])) t P := by
  induction P with
  | nil => intros; rfl
  | cons c P ih =>
    intro s t hs
    obtain ⟨h1, h2⟩ := hs.step hr c
    simp only [FacadeVars.run, h1, ih h2]

/-- The state after a program. -/
def after (I : HashImpl σ) (h₀ : κ → σ) (s : St σ) (P : List (Stmt κ)) : St σ := P.foldl (fun s c => (s.step I h₀ c).1) s

theorem run_length (P : List (Stmt κ)) : ∀ s : St σ, (run I h₀ s P).length = P.length := by
  induction P with
  | nil => intro _; rfl
  | cons c P ih => intro s; simp [run, ih]

theorem run_append (P Q : List (Stmt κ)) : ∀ s : St σ, run I h₀ s (P ++ Q) = run I h₀ s P ++ run I h₀ (after I h₀ s P) Q := by
  induction P with
  | nil => intro _; rfl
  | cons c P ih => intro s; simp only [List.cons_append, run, after, List.foldl_cons, ih]

theorem after_append (P Q : List (Stmt κ)) (s : St σ) : after I h₀ s (P ++ Q) = after I h₀ (after I h₀ s P) Q := by
  simp [after, List.foldl_append]

theorem after_fresh (P : List (Stmt κ)) : ∀ s : St σ, Fresh s → Fresh (after I h₀ s P) := by
  induction P with
  | nil => intro s h; exact h
  | cons c P ih =>
    intro s h
    refine ih _ ?_
    dsimp only
    rw [step_eff]
    exact h.apply (eff_local s c)

theorem eff_quiet (s : St σ) (c : Stmt κ) (he : ¬ edits c) (i : Nat) (x : Bytes) (h : (eff I h₀ s c).1.mem = some (i, x)) : i = s.clock := by
  cases c <;> simp only [eff] at h <;> (repeat' split at h) <;> simp_all [edits]

theorem eff_target (s : St σ) (c : Stmt κ) (d : Nat) (x : Val) (h : (eff I h₀ s c).1.var = some (d, x)) : target c = some d := by
  cases c <;> simp only [eff] at h <;> (repeat' split at h) <;> simp_all [target]

theorem after_kept (Q : List (Stmt κ)) (v : Nat) (hv : ∀ c ∈ Q, target c ≠ some v) (he : ∀ c ∈ Q, ¬ edits c) :
    ∀ s : St σ, Fresh s → (after I h₀ s Q).var v = s.var v ∧ (after I h₀ s Q).mem (s.var v).data = s.mem (s.var v).data := by
  induction Q with
  | nil => intro s _; exact ⟨rfl, rfl⟩
  | cons c Q ih =>
    intro s hf
    have hs : after I h₀ s (c :: Q) = after I h₀ ((eff I h₀ s c).1.apply s) Q := by
      simp only [after, List.foldl_cons, step_eff]
    have e1 : ((eff I h₀ s c).1.apply s).var v = s.var v :=
      updO_ne fun x hx => hv c (List.mem_cons_self ..) (eff_target s c v x hx)
    have e2 : ((eff I h₀ s c).1.apply s).mem (s.var v).data = s.mem (s.var v).data :=
      updO_ne fun x hx => by
        have := eff_quiet s c (he c (List.mem_cons_self ..)) _ x hx
        have := hf.data v
        omega
    have := ih (fun c hc => hv c (List.mem_cons_of_mem _ hc)) (fun c hc => he c (List.mem_cons_of_mem _ hc)) _
      (hf.apply (eff_local (I := I) (h₀ := h₀) s c))
    rw [e1, e2] at this
    rw [hs]
    exact this

theorem last_result (P : List (Stmt κ)) (c : Stmt κ) (s : St σ) :
    (run I h₀ s (P ++ [c]))[P.length]? = some ((after I h₀ s P).step I h₀ c).2 := by
  rw [run_append, List.getElem?_append_right (Nat.le_of_eq (run_length P s)), run_length, Nat.sub_self]
  rfl

end FV

variable {σ κ : Type} (I : HashImpl σ) (h₀ : κ → σ)

/-- Whatever the caller does with any number of variables: when each digest object satisfies the hash contract, he sees what he would see with ideal
objects, which consist of an algorithm and the bytes written since the last Reset *through any of the variables that refer to the object*. -/
theorem C140_shared (S : κ → HashSpec) (hr : ∀ k, Refines I (h₀ k) (S k)) (P : List (Stmt κ)) :
    run I h₀ start P = run (ideal S) (fun k => (k, [])) start P :=
  FV.Same.run hr P ⟨rfl, rfl, rfl, fun _ => trivial⟩

/-- Two groups of variables that are never used in one statement do not influence each other, however the statements are interleaved: what the caller
sees of the statements of one group is what he sees when the statements of the other are left out. -/
theorem C140_apart (A : Nat → Prop) (P : List (Stmt κ)) (hP : ∀ c ∈ P, Within A c ∨ Within (fun v => ¬ A v) c) (i : Nat) (c : Stmt κ)
    (hc : P[i]? = some c) (hA : Within A c) : (run I h₀ start P)[i]? = (run I h₀ start (mask A P))[i]? :=
  FV.run_inv P hP start start (FV.start_inv A) i c hc hA

/-- A statement that does not assign to a variable leaves its error and, unless the caller modifies an array himself, its bytes as they are: no method
modifies the bytes it was given or has returned. -/
theorem C140_bytes_kept (P Q : List (Stmt κ)) (v : Nat) (hv : ∀ c ∈ Q, target c ≠ some v) (he : ∀ c ∈ Q, ¬ edits c) :
    (run I h₀ start (P ++ Q ++ [.toBytes v]))[(P ++ Q).length]? = (run I h₀ start (P ++ [.toBytes v]))[P.length]? ∧
    (run I h₀ start (P ++ Q ++ [.error v]))[(P ++ Q).length]? = (run I h₀ start (P ++ [.error v]))[P.length]? := by
  obtain ⟨h1, h2⟩ := FV.after_kept (I := I) (h₀ := h₀) Q v hv he (FV.after I h₀ start P) (FV.after_fresh P start (FV.start_inv fun _ => True).freshS)
  rw [FV.last_result, FV.last_result, FV.last_result, FV.last_result, FV.after_append]
  simp only [St.step, St.exec, h1, h2, and_self]

/-- But values are not independent: after `y := x.Write(p); z := x.Write(q)` the values `y` and `z` share the digest object of `x`, so that
`y.Sum(b)` gives the digest of `p` and `q` together.  One might expect that of `p` (the methods return a new value and leave the old one alone). -/
theorem C140_branch_violated (S : κ → HashSpec) (hr : ∀ k, Refines I (h₀ k) (S k)) (k : κ) (p q b : Bytes) :
    run I h₀ start [.new 0 0 k, .write 1 0 p, .write 2 0 q, .sum 3 1 b, .toBytes 3] =
      [.done, .done, .done, .done, .bytes (b ++ (S k).H (p ++ q))] := by
  rw [C140_shared I h₀ S hr]
  rfl

/-- `FromBytes` keeps the caller's array: what he writes into it afterwards is hashed. -/
theorem C140_input_aliased_violated (p v : Bytes) (f : Bytes → Bytes) :
    run I h₀ start [.fromBytes 1 0 p, .edit 1 v, .digest 2 1 f, .toBytes 2] = [.done, .done, .done, .bytes (f (goCopy p 0 v))] := rfl

/-- `ToBytes` gives the array itself: what the caller writes into it changes the value, and all values that refer to it. -/
theorem C140_output_aliased_violated (p v : Bytes) (f : Bytes → Bytes) :
    run I h₀ start [.fromBytes 1 0 p, .digest 1 1 f, .fromData 2 0 1, .edit 2 v, .toBytes 1] =
      [.done, .done, .done, .done, .bytes (goCopy (f p) 0 v)] := rfl

-- the hypotheses: an implementation that meets the contract, and two interleaved chains
private def toy : HashImpl Bytes where
  write s p := some (s ++ p, p.length)
  sum s b := some (s, b ++ s.take 4)
  reset _ := []
  size _ := 4
  blockSize _ := 1
private def toySpec : HashSpec := ⟨fun m => m.take 4, 4, 1⟩
private theorem toy_refines : ∀ _ : Unit, Refines toy [] toySpec := fun _ ops => by
  suffices h : ∀ ops m, toy.run m ops = toySpec.run m ops from h ops []
  intro ops
  induction ops with
  | nil => intro m; rfl
  | cons o ops ih => intro m; cases o <;> simp [HashImpl.run, HashSpec.run, toy, toySpec] <;> exact ih _
example : run toy (fun _ : Unit => []) start [.new 0 0 (), .write 1 0 [1], .write 2 0 [2], .sum 3 1 [], .toBytes 3] =
    [.done, .done, .done, .done, .bytes [1, 2]] := C140_branch_violated toy _ (fun _ => toySpec) toy_refines () [1] [2] []
private def prog : List (Stmt Unit) :=
  [.new 0 0 (), .new 7 7 (), .write 0 0 [1], .write 7 7 [5], .write 0 0 [2], .sum 7 7 [], .sum 0 0 [], .toBytes 7, .toBytes 0]
example : (run toy (fun _ => []) start prog)[8]? = (run toy (fun _ => []) start (mask (· < 5) prog))[8]? :=
  C140_apart toy _ (· < 5) prog (by simp [prog, Within, vars]) 8 (.toBytes 0) rfl (by simp [Within, vars])
example : (run toy (fun _ => []) start prog)[8]? = some (.bytes [1, 2]) := by decide +kernel
example : (∀ c ∈ [(.write 0 7 [1] : Stmt Unit), .sum 2 0 []], target c ≠ some 1) ∧
    ∀ c ∈ [(.write 0 7 [1] : Stmt Unit), .sum 2 0 []], ¬ edits c := by simp [target, edits]

end Verif.Props
