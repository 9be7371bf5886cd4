import Verif.Basic
/-
The `hash.Hash` interface of the Go standard library, as every digest of the repository
exposes it, and the abstract specification it is compared with.
-/
namespace Verif

/-- An implementation of Go's `hash.Hash` (`Write`, `Sum`, `Reset`, `Size`, `BlockSize`).
`none` is a panic.  `write` returns the number `n` of its `(n int, err error)` result; the
modelled digests always return a nil error.  `sum` takes the caller's prefix and returns the new
state as well, because several digests of the repository mutate themselves in `Sum`. -/
structure HashImpl (σ : Type) where
  write : σ → Bytes → Option (σ × Nat)
  sum : σ → Bytes → Option (σ × Bytes)
  reset : σ → σ
  size : σ → Nat
  blockSize : σ → Nat

/-- One call of the `hash.Hash` interface. -/
inductive Op where
  | write (p : Bytes)
  | sum (prefix_ : Bytes)
  | reset
  | size
  | blockSize
  deriving DecidableEq, Repr

/-- The observable result of one call. -/
inductive Out where
  | wrote (n : Nat)
  | bytes (b : Bytes)
  | done
  | num (n : Nat)
  | panicked
  deriving DecidableEq, Repr

/-- The results of a sequence of calls on one digest; a panic ends the history. -/
def HashImpl.run {σ} (I : HashImpl σ) : σ → List Op → List Out
  | _, [] => []
  | s, .write p :: ops => match I.write s p with
    | some (s', n) => .wrote n :: I.run s' ops
    | none => [.panicked]
  | s, .sum b :: ops => match I.sum s b with
    | some (s', r) => .bytes r :: I.run s' ops
    | none => [.panicked]
  | s, .reset :: ops => .done :: I.run (I.reset s) ops
  | s, .size :: ops => .num (I.size s) :: I.run s ops
  | s, .blockSize :: ops => .num (I.blockSize s) :: I.run s ops

/-- The object after a sequence of calls (`none` after a panic). -/
def HashImpl.exec {σ} (I : HashImpl σ) : σ → List Op → Option σ
  | s, [] => some s
  | s, .write p :: ops => match I.write s p with
    | some (s', _) => I.exec s' ops
    | none => none
  | s, .sum b :: ops => match I.sum s b with
    | some (s', _) => I.exec s' ops
    | none => none
  | s, .reset :: ops => I.exec (I.reset s) ops
  | s, .size :: ops => I.exec s ops
  | s, .blockSize :: ops => I.exec s ops

/-- The bytes written since the last `Reset` in a history that starts with message `m`. -/
def msgAfter : Bytes → List Op → Bytes
  | m, [] => m
  | m, .write p :: ops => msgAfter (m ++ p) ops
  | _, .reset :: ops => msgAfter [] ops
  | m, .sum _ :: ops => msgAfter m ops
  | m, .size :: ops => msgAfter m ops
  | m, .blockSize :: ops => msgAfter m ops

/-- The specification of a hash object: a function `H` of the bytes written since the
construction or the last `Reset`, and two constants. -/
structure HashSpec where
  H : Bytes → Bytes
  size : Nat
  blockSize : Nat

/-- What a user expects of a sequence of calls: the only state is the message so far. -/
def HashSpec.run (S : HashSpec) : Bytes → List Op → List Out
  | _, [] => []
  | m, .write p :: ops => .wrote p.length :: S.run (m ++ p) ops
  | m, .sum b :: ops => .bytes (b ++ S.H m) :: S.run m ops
  | _, .reset :: ops => .done :: S.run [] ops
  | m, .size :: ops => .num S.size :: S.run m ops
  | m, .blockSize :: ops => .num S.blockSize :: S.run m ops

/-- The digest `I`, freshly constructed in state `s₀`, behaves like `S` under *every* finite
history of calls: `Write` may be split arbitrarily, `Sum` neither disturbs the state nor depends
on anything but the bytes written since the last `Reset`, `Reset` restores the initial state,
sizes are constant, and nothing panics. -/
def Refines {σ} (I : HashImpl σ) (s₀ : σ) (S : HashSpec) : Prop :=
  ∀ ops : List Op, I.run s₀ ops = S.run [] ops

/-- The same for a set of histories only. -/
def RefinesOn {σ} (P : List Op → Prop) (I : HashImpl σ) (s₀ : σ) (S : HashSpec) : Prop :=
  ∀ ops : List Op, P ops → I.run s₀ ops = S.run [] ops

/-- A simulation relation between concrete states and messages. -/
structure Sim {σ} (I : HashImpl σ) (S : HashSpec) (R : σ → Bytes → Prop) : Prop where
  write : ∀ s m p, R s m → ∃ s', I.write s p = some (s', p.length) ∧ R s' (m ++ p)
  sum : ∀ s m b, R s m → ∃ s', I.sum s b = some (s', b ++ S.H m) ∧ R s' m
  reset : ∀ s m, R s m → R (I.reset s) []
  size : ∀ s m, R s m → I.size s = S.size
  blockSize : ∀ s m, R s m → I.blockSize s = S.blockSize

theorem Sim.run {σ} {I : HashImpl σ} {S : HashSpec} {R : σ → Bytes → Prop} (h : Sim I S R) :
    ∀ ops s m, R s m → I.run s ops = S.run m ops := by
  intro ops
  induction ops with
  | nil => intros; rfl
  | cons o ops ih =>
    intro s m hR
    cases o with
    | write p =>
      obtain ⟨s', e, h'⟩ := h.write s m p hR
      simp [HashImpl.run, HashSpec.run, e, ih s' _ h']
    | sum b =>
      obtain ⟨s', e, h'⟩ := h.sum s m b hR
      simp [HashImpl.run, HashSpec.run, e, ih s' _ h']
    | reset => simp [HashImpl.run, HashSpec.run, ih _ _ (h.reset s m hR)]
    | size => simp [HashImpl.run, HashSpec.run, h.size s m hR, ih _ _ hR]
    | blockSize => simp [HashImpl.run, HashSpec.run, h.blockSize s m hR, ih _ _ hR]

/-- Every reachable state represents the message written since the last `Reset`. -/
theorem Sim.exec {σ} {I : HashImpl σ} {S : HashSpec} {R : σ → Bytes → Prop} (h : Sim I S R) :
    ∀ ops s m s', R s m → I.exec s ops = some s' → R s' (msgAfter m ops) := by
  intro ops
  induction ops with
  | nil => intro s m s' hR he; cases he; exact hR
  | cons o ops ih =>
    intro s m s' hR he
    cases o with
    | write p =>
      obtain ⟨s1, e, h'⟩ := h.write s m p hR
      simp only [HashImpl.exec, e] at he
      exact ih _ _ _ h' he
    | sum b =>
      obtain ⟨s1, e, h'⟩ := h.sum s m b hR
      simp only [HashImpl.exec, e] at he
      exact ih _ _ _ h' he
    | reset => exact ih _ _ _ (h.reset s m hR) he
    | size => exact ih _ _ _ hR he
    | blockSize => exact ih _ _ _ hR he

theorem Sim.refines {σ} {I : HashImpl σ} {S : HashSpec} {R : σ → Bytes → Prop} (h : Sim I S R)
    {s₀ : σ} (h0 : R s₀ []) : Refines I s₀ S := fun ops => h.run ops s₀ [] h0

/-- Proof rule: a simulation relation between concrete states and messages. -/
theorem refines_of_sim {σ} (I : HashImpl σ) (s₀ : σ) (S : HashSpec) (R : σ → Bytes → Prop)
    (h0 : R s₀ [])
    (hw : ∀ s m p, R s m → ∃ s', I.write s p = some (s', p.length) ∧ R s' (m ++ p))
    (hs : ∀ s m b, R s m → ∃ s', I.sum s b = some (s', b ++ S.H m) ∧ R s' m)
    (hr : ∀ s m, R s m → R (I.reset s) [])
    (hz : ∀ s m, R s m → I.size s = S.size)
    (hb : ∀ s m, R s m → I.blockSize s = S.blockSize) : Refines I s₀ S :=
  Sim.refines ⟨hw, hs, hr, hz, hb⟩ h0

/-- What a user wants from saving and restoring the state of a digest: `save` of every state
reachable from `s₀` is accepted by `load`, whatever the receiving object, and the restored object
answers every further history like the saved one. -/
def RoundTrips {σ} (I : HashImpl σ) (s₀ : σ) (save : σ → Bytes) (load : σ → Bytes → Option σ) :
    Prop :=
  ∀ (ops : List Op) (d r : σ), I.exec s₀ ops = some d →
    ∃ d', load r (save d) = some d' ∧ ∀ more : List Op, I.run d' more = I.run d more

theorem Sim.roundTrips {σ} {I : HashImpl σ} {S : HashSpec} {R : σ → Bytes → Prop} (h : Sim I S R)
    {s₀ : σ} (h0 : R s₀ []) {save : σ → Bytes} {load : σ → Bytes → Option σ}
    (hl : ∀ d m r, R d m → ∃ d', load r (save d) = some d' ∧ R d' m) :
    RoundTrips I s₀ save load := by
  intro ops d r he
  have hR := h.exec ops s₀ [] d h0 he
  obtain ⟨d', e, hR'⟩ := hl d _ r hR
  exact ⟨d', e, fun more => by rw [h.run more d' _ hR', h.run more d _ hR]⟩

/-- No `Reset` in the history. -/
def NoReset (ops : List Op) : Prop := Op.reset ∉ ops

/-- Proof rule for histories without `Reset`. -/
theorem refinesOn_noReset_of_sim {σ} (I : HashImpl σ) (s₀ : σ) (S : HashSpec)
    (R : σ → Bytes → Prop)
    (h0 : R s₀ [])
    (hw : ∀ s m p, R s m → ∃ s', I.write s p = some (s', p.length) ∧ R s' (m ++ p))
    (hs : ∀ s m b, R s m → ∃ s', I.sum s b = some (s', b ++ S.H m) ∧ R s' m)
    (hz : ∀ s m, R s m → I.size s = S.size)
    (hb : ∀ s m, R s m → I.blockSize s = S.blockSize) : RefinesOn NoReset I s₀ S := by
  intro ops hops
  suffices h : ∀ ops s m, NoReset ops → R s m → I.run s ops = S.run m ops from
    h ops s₀ [] hops h0
  intro ops
  induction ops with
  | nil => intros; rfl
  | cons o ops ih =>
    intro s m hn h
    have hn' : NoReset ops := fun hm => hn (List.mem_cons_of_mem _ hm)
    cases o with
    | write p =>
      obtain ⟨s', e, h'⟩ := hw s m p h
      simp [HashImpl.run, HashSpec.run, e, ih s' _ hn' h']
    | sum b =>
      obtain ⟨s', e, h'⟩ := hs s m b h
      simp [HashImpl.run, HashSpec.run, e, ih s' _ hn' h']
    | reset => exact absurd List.mem_cons_self hn
    | size => simp [HashImpl.run, HashSpec.run, hz s m h, ih _ _ hn' h]
    | blockSize => simp [HashImpl.run, HashSpec.run, hb s m h, ih _ _ hn' h]

/-- One history on which two behaviours differ refutes refinement. -/
theorem not_refines {σ} {I : HashImpl σ} {s₀ : σ} {S : HashSpec} (ops : List Op)
    (h : I.run s₀ ops ≠ S.run [] ops) : ¬ Refines I s₀ S := fun hr => h (hr ops)

/-- Consequence: writing `m` to a fresh object and asking for the digest gives `H m`. -/
theorem Refines.oneshot {σ} {I : HashImpl σ} {s₀ : σ} {S : HashSpec} (h : Refines I s₀ S)
    {m : Bytes} {s' s'' n r} (hw : I.write s₀ m = some (s', n))
    (hs : I.sum s' [] = some (s'', [] ++ r)) : r = S.H m := by
  rw [List.nil_append] at hs
  have h := h [.write m, .sum []]
  simp only [HashImpl.run, HashSpec.run, hw, hs, List.nil_append, List.cons.injEq,
    Out.bytes.injEq] at h
  exact h.2.1

/-- Consequence: any division of a message into `Write` calls gives the same `Sum`. -/
theorem Refines.split {σ} {I : HashImpl σ} {s₀ : σ} {S : HashSpec} (h : Refines I s₀ S)
    (ps : List Bytes) (b : Bytes) :
    I.run s₀ (ps.map Op.write ++ [.sum b]) =
      ps.map (fun p => Out.wrote p.length) ++ [.bytes (b ++ S.H ps.flatten)] := by
  rw [h]
  suffices ∀ m, S.run m (ps.map Op.write ++ [.sum b]) =
      ps.map (fun p => Out.wrote p.length) ++ [.bytes (b ++ S.H (m ++ ps.flatten))] by
    simpa using this []
  induction ps with
  | nil => intro m; simp [HashSpec.run]
  | cons p ps ih => intro m; simp [HashSpec.run, ih]

/-- At every point of the history the message written since the last `Reset` is shorter than `N`
bytes. -/
def Fits (N : Nat) (ops : List Op) : Prop := ∀ k, (msgAfter [] (ops.take k)).length < N

/-- Proof rule for messages below a length bound. -/
theorem refinesOn_fits_of_sim {σ} (N : Nat) (I : HashImpl σ) (s₀ : σ) (S : HashSpec)
    (R : σ → Bytes → Prop) (h0 : R s₀ [])
    (hw : ∀ s m p, R s m → (m ++ p).length < N → ∃ s', I.write s p = some (s', p.length) ∧ R s' (m ++ p))
    (hs : ∀ s m b, R s m → m.length < N → ∃ s', I.sum s b = some (s', b ++ S.H m) ∧ R s' m)
    (hr : ∀ s m, R s m → R (I.reset s) [])
    (hz : ∀ s m, R s m → I.size s = S.size)
    (hb : ∀ s m, R s m → I.blockSize s = S.blockSize) : RefinesOn (Fits N) I s₀ S := by
  intro ops hops
  suffices h : ∀ ops s m, (∀ k, (msgAfter m (ops.take k)).length < N) → R s m → I.run s ops = S.run m ops from
    h ops s₀ [] hops h0
  intro ops
  induction ops with
  | nil => intros; rfl
  | cons o ops ih =>
    intro s m hn h
    cases o with
    | write p =>
      obtain ⟨s', e, h'⟩ := hw s m p h (by simpa [msgAfter] using hn 1)
      simp [HashImpl.run, HashSpec.run, e, ih s' _ (fun k => by simpa [msgAfter] using hn (k+1)) h']
    | sum b =>
      obtain ⟨s', e, h'⟩ := hs s m b h (by simpa [msgAfter] using hn 0)
      simp [HashImpl.run, HashSpec.run, e, ih s' _ (fun k => by simpa [msgAfter] using hn (k+1)) h']
    | reset => simp [HashImpl.run, HashSpec.run, ih _ _ (fun k => by simpa [msgAfter] using hn (k+1)) (hr s m h)]
    | size => simp [HashImpl.run, HashSpec.run, hz s m h, ih _ _ (fun k => by simpa [msgAfter] using hn (k+1)) h]
    | blockSize => simp [HashImpl.run, HashSpec.run, hb s m h, ih _ _ (fun k => by simpa [msgAfter] using hn (k+1)) h]

/-- In state `s` the object behaves as if exactly `m` had been written. -/
def Behaves {σ} (I : HashImpl σ) (S : HashSpec) (s : σ) (m : Bytes) : Prop :=
  ∀ ops, I.run s ops = S.run m ops

/-- Contract-keeping objects simulate their specification; the relation is observational. -/
theorem Refines.sim {σ} {I : HashImpl σ} {s₀ : σ} {S : HashSpec} (_ : Refines I s₀ S) : Sim I S (Behaves I S) where
  write s m p h := by
    have h0 := h [.write p]
    simp only [HashImpl.run, HashSpec.run] at h0
    match e : I.write s p, h0 with
    | some (s', n), h0 =>
      simp only [List.cons.injEq, Out.wrote.injEq, and_true] at h0
      subst h0
      refine ⟨s', rfl, fun ops => ?_⟩
      have := h (.write p :: ops)
      simpa only [HashImpl.run, HashSpec.run, e, List.cons.injEq, true_and] using this
    | none, h0 => simp at h0
  sum s m b h := by
    have h0 := h [.sum b]
    simp only [HashImpl.run, HashSpec.run] at h0
    match e : I.sum s b, h0 with
    | some (s', r), h0 =>
      simp only [List.cons.injEq, Out.bytes.injEq, and_true] at h0
      subst h0
      refine ⟨s', rfl, fun ops => ?_⟩
      have := h (.sum b :: ops)
      simpa only [HashImpl.run, HashSpec.run, e, List.cons.injEq, true_and] using this
    | none, h0 => simp at h0
  reset s m h := fun ops => by
    have := h (.reset :: ops)
    simpa only [HashImpl.run, HashSpec.run, List.cons.injEq, true_and] using this
  size s m h := by
    have := h [.size]
    simpa only [HashImpl.run, HashSpec.run, List.cons.injEq, and_true, Out.num.injEq] using this
  blockSize s m h := by
    have := h [.blockSize]
    simpa only [HashImpl.run, HashSpec.run, List.cons.injEq, and_true, Out.num.injEq] using this

/-- At every `Sum` of the history, `P` holds of the list of the arguments of the `Write` calls made
since the last `Reset` (`ps` before the history starts). -/
def SumsOn (P : List Bytes → Prop) : List Bytes → List Op → Prop
  | _, [] => True
  | ps, .write p :: ops => SumsOn P (ps ++ [p]) ops
  | ps, .sum _ :: ops => P ps ∧ SumsOn P ps ops
  | _, .reset :: ops => SumsOn P [] ops
  | ps, .size :: ops => SumsOn P ps ops
  | ps, .blockSize :: ops => SumsOn P ps ops

/-- Proof rule for digests that are right only after some divisions of the message into `Write`s. -/
theorem refinesOn_sums_of_sim {σ} (P : List Bytes → Prop) (I : HashImpl σ) (s₀ : σ) (S : HashSpec)
    (R : σ → List Bytes → Prop) (h0 : R s₀ [])
    (hw : ∀ s ps p, R s ps → ∃ s', I.write s p = some (s', p.length) ∧ R s' (ps ++ [p]))
    (hs : ∀ s ps b, R s ps → P ps → ∃ s', I.sum s b = some (s', b ++ S.H ps.flatten) ∧ R s' ps)
    (hr : ∀ s ps, R s ps → R (I.reset s) [])
    (hz : ∀ s ps, R s ps → I.size s = S.size)
    (hb : ∀ s ps, R s ps → I.blockSize s = S.blockSize) : RefinesOn (SumsOn P []) I s₀ S := by
  intro ops hops
  suffices h : ∀ ops s ps, SumsOn P ps ops → R s ps → I.run s ops = S.run ps.flatten ops from
    h ops s₀ [] hops h0
  intro ops
  induction ops with
  | nil => intros; rfl
  | cons o ops ih =>
    intro s ps hn h
    cases o with
    | write p =>
      obtain ⟨s', e, h'⟩ := hw s ps p h
      have := ih s' (ps ++ [p]) hn h'
      simp [HashImpl.run, HashSpec.run, e, this]
    | sum b =>
      obtain ⟨s', e, h'⟩ := hs s ps b h hn.1
      simp [HashImpl.run, HashSpec.run, e, ih s' _ hn.2 h']
    | reset =>
      have := ih _ [] hn (hr s ps h)
      simp [HashImpl.run, HashSpec.run, this]
    | size => simp [HashImpl.run, HashSpec.run, hz s ps h, ih _ _ hn h]
    | blockSize => simp [HashImpl.run, HashSpec.run, hb s ps h, ih _ _ hn h]

end Verif
