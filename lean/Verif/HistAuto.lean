import Verif.HashAPI
/-
Histories in which each call is allowed by a rule that looks at a summary `τ` of the earlier calls.
-/
namespace Verif

/-- Every call of the history is allowed (`ok`) in the summary of what came before it; `next` updates the
summary. -/
def Permits {τ} (ok : τ → Op → Prop) (next : τ → Op → τ) : τ → List Op → Prop
  | _, [] => True
  | t, o :: ops => ok t o ∧ Permits ok next (next t o) ops

theorem refinesOn_permits_of_sim {σ τ} (ok : τ → Op → Prop) (next : τ → Op → τ) (t₀ : τ) (I : HashImpl σ) (s₀ : σ) (S : HashSpec)
    (R : σ → τ → Bytes → Prop) (h0 : R s₀ t₀ [])
    (hw : ∀ s t m p, R s t m → ok t (.write p) → ∃ s', I.write s p = some (s', p.length) ∧ R s' (next t (.write p)) (m ++ p))
    (hs : ∀ s t m b, R s t m → ok t (.sum b) → ∃ s', I.sum s b = some (s', b ++ S.H m) ∧ R s' (next t (.sum b)) m)
    (hr : ∀ s t m, R s t m → ok t .reset → R (I.reset s) (next t .reset) [])
    (hz : ∀ s t m, R s t m → I.size s = S.size ∧ (ok t .size → R s (next t .size) m))
    (hb : ∀ s t m, R s t m → I.blockSize s = S.blockSize ∧ (ok t .blockSize → R s (next t .blockSize) m)) :
    RefinesOn (Permits ok next t₀) I s₀ S := by
  intro ops hops
  suffices h : ∀ ops s t m, Permits ok next t ops → R s t m → I.run s ops = S.run m ops from h ops s₀ t₀ [] hops h0
  intro ops
  induction ops with
  | nil => intros; rfl
  | cons o ops ih =>
    intro s t m hn h
    obtain ⟨hok, hn⟩ := hn
    cases o with
    | write p =>
      obtain ⟨s', e, h'⟩ := hw s t m p h hok
      have := ih s' _ _ hn h'
      simp [HashImpl.run, HashSpec.run, e, this]
    | sum b =>
      obtain ⟨s', e, h'⟩ := hs s t m b h hok
      simp [HashImpl.run, HashSpec.run, e, ih s' _ _ hn h']
    | reset =>
      have := ih _ _ [] hn (hr s t m h hok)
      simp [HashImpl.run, HashSpec.run, this]
    | size => simp [HashImpl.run, HashSpec.run, (hz s t m h).1, ih _ _ _ hn ((hz s t m h).2 hok)]
    | blockSize => simp [HashImpl.run, HashSpec.run, (hb s t m h).1, ih _ _ _ hn ((hb s t m h).2 hok)]

end Verif
