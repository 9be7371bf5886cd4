import Verif.Model.HMAC
import Verif.Spec.HMAC
/-
crypto/hmac over any hash object that keeps the hash.Hash contract.
-/
namespace Verif.HMAC

theorem pad_eq (B : Nat) (key : Bytes) (h : key.length ≤ B) : goCopy (zeros B) 0 key = key ++ zeros (B - key.length) := by
  unfold goCopy
  simp only [zeros, List.take_zero, List.nil_append, List.length_replicate, Nat.sub_zero, Nat.zero_add, List.drop_replicate]
  rw [List.take_of_length_le h]

/-- What the two saved strings are, in every reachable state. -/
structure Rel {σ} (I : HashImpl σ) (M : Option (Saver σ)) (R : σ → Bytes → Prop) (ip op : Bytes) (h : Mac σ) (m : Bytes) : Prop where
  inner : R h.inner (ip ++ m)
  outer : ∃ x, R h.outer x
  alive : h.dead = false
  pads : (h.marshaled = false ∧ h.ipad = ip ∧ h.opad = op) ∨
    (h.marshaled = true ∧ ∃ M', M = some M' ∧ (∃ d, h.ipad = M'.save d ∧ R d ip) ∧ ∃ d, h.opad = M'.save d ∧ R d op)

/-- Saving an object and loading the bytes into another one restores the message. -/
def Restores {σ} (M : Option (Saver σ)) (R : σ → Bytes → Prop) : Prop :=
  ∀ M', M = some M' → ∀ d m r m', R d m → R r m' → ∃ d', M'.load r (M'.save d) = some d' ∧ R d' m

theorem restores_some {σ} {M' : Saver σ} {R : σ → Bytes → Prop}
    (h : ∀ d m r m', R d m → R r m' → ∃ d', M'.load r (M'.save d) = some d' ∧ R d' m) : Restores (some M') R := by
  intro M'' e
  have e := Option.some.inj e
  subst e
  exact h

section
variable {σ : Type} {I : HashImpl σ} {S : HashSpec} {R : σ → Bytes → Prop} {M : Option (Saver σ)} {ip op : Bytes}

theorem openOuter_rel (hs : Sim I S R) (hM : Restores M R) (h : Mac σ) (m : Bytes) (hr : Rel I M R ip op h m) :
    ∃ o, openOuter I M h = some o ∧ R o op := by
  unfold openOuter
  obtain ⟨x, hx⟩ := hr.outer
  rcases hr.pads with ⟨e, -, eo⟩ | ⟨e, M', rfl, -, d, eo, hd⟩
  · rw [e, eo]
    obtain ⟨o, e1, h1⟩ := hs.write _ _ op (hs.reset _ _ hx)
    refine ⟨o, ?_, by simpa using h1⟩
    simp [e1]
  · rw [e, eo]
    obtain ⟨d', e1, h1⟩ := hM M' rfl d op _ x hd hx
    exact ⟨d', by simpa using e1, h1⟩

theorem rel_sim (hs : Sim I S R) (hM : Restores M R) :
    Sim (impl I M) { H := fun m => S.H (op ++ S.H (ip ++ m)), size := S.size, blockSize := S.blockSize } (Rel I M R ip op) where
  write h m p hr := by
    obtain ⟨s', e, h'⟩ := hs.write _ _ p hr.inner
    refine ⟨{ h with inner := s' }, ?_, ⟨by rw [← List.append_assoc]; exact h', hr.outer, hr.alive, hr.pads⟩⟩
    show write I h p = _
    unfold write
    simp [hr.alive, e]
  sum h m b hr := by
    obtain ⟨s1, e1, h1⟩ := hs.sum _ _ b hr.inner
    obtain ⟨o, e2, h2⟩ := openOuter_rel hs hM h m hr
    obtain ⟨o3, e3, h3⟩ := hs.write _ _ (S.H (ip ++ m)) h2
    obtain ⟨o4, e4, h4⟩ := hs.sum _ _ b h3
    refine ⟨{ h with inner := s1, outer := o4 }, ?_, ⟨h1, ⟨_, h4⟩, hr.alive, hr.pads⟩⟩
    show sum I M h b = _
    unfold sum
    simp [hr.alive, e1, e2, e3, e4]
  reset h m hr := by
    show Rel I M R ip op (reset I M h) []
    obtain ⟨x, hx⟩ := hr.outer
    unfold reset
    rw [hr.alive]
    rcases hr.pads with ⟨e, ei, eo⟩ | ⟨e, M', rfl, ⟨d, ei, hd⟩, d2, eo, hd2⟩
    · obtain ⟨i, e1, h1⟩ := hs.write _ _ ip (hs.reset _ _ hr.inner)
      obtain ⟨o, e2, h2⟩ := hs.write _ _ op (hs.reset _ _ hx)
      rw [List.nil_append] at h1 h2
      rw [e, ei, eo, e1]
      cases M with
      | none => exact ⟨by simpa using h1, ⟨x, hx⟩, rfl, Or.inl ⟨rfl, rfl, rfl⟩⟩
      | some M' =>
        simp only [Bool.false_eq_true, if_false, e2]
        exact ⟨by simpa using h1, ⟨_, h2⟩, rfl, Or.inr ⟨rfl, M', rfl, ⟨_, rfl, h1⟩, _, rfl, h2⟩⟩
    · obtain ⟨d', e1, h1⟩ := hM M' rfl d ip _ _ hd hr.inner
      rw [e, ei]
      simp only [Bool.false_eq_true, if_false, if_true, Option.bind_some, e1]
      exact ⟨by simpa using h1, ⟨x, hx⟩, rfl, Or.inr ⟨rfl, M', rfl, ⟨d, rfl, hd⟩, d2, eo, hd2⟩⟩
  size h m hr := by obtain ⟨x, hx⟩ := hr.outer; exact hs.size _ _ hx
  blockSize h m hr := hs.blockSize _ _ hr.inner

/-- The key block of crypto/hmac: as in RFC 2104, but never longer than a block. -/
def keyBlock (B : Nat) (H : Bytes → Bytes) (key : Bytes) : Bytes := (Spec.HMAC.block B H key).take B

theorem keyBlock_eq {B : Nat} {H : Bytes → Bytes} (hL : ∀ m, (H m).length ≤ B) (key : Bytes) : keyBlock B H key = Spec.HMAC.block B H key := by
  unfold keyBlock
  apply List.take_of_length_le
  unfold Spec.HMAC.block
  dsimp only
  split
  · have := hL key; simp only [List.length_append, zeros_length]; omega
  · simp only [List.length_append, zeros_length]; omega

theorem pad_take (B : Nat) (k : Bytes) : goCopy (zeros B) 0 k = (k ++ zeros (B - k.length)).take B := by
  by_cases h : k.length ≤ B
  · rw [pad_eq B k h, List.take_of_length_le (by simp only [List.length_append, zeros_length]; omega)]
  · have : zeros (B - k.length) = [] := by rw [show B - k.length = 0 by omega]; rfl
    rw [this, List.append_nil]
    unfold goCopy
    simp only [zeros, List.take_zero, List.nil_append, List.length_replicate, Nat.sub_zero, Nat.zero_add, List.drop_replicate]
    rw [show B - List.length k = 0 by omega, List.replicate_zero, List.append_nil]

/-- `hmac.New` succeeds, and its object has the key block written. -/
theorem new_rel (hs : Sim I S R) {s₀ : σ} (h0 : R s₀ []) (key : Bytes) :
    ∃ h, new I s₀ key = some h ∧ Rel I M R ((keyBlock S.blockSize S.H key).map (· ^^^ 0x36#8))
      ((keyBlock S.blockSize S.H key).map (· ^^^ 0x5c#8)) h [] := by
  have hB := hs.blockSize _ _ h0
  unfold new keyBlock Spec.HMAC.block
  dsimp only
  rw [hB]
  by_cases hk : key.length > S.blockSize
  · obtain ⟨o, e1, h1⟩ := hs.write _ _ key h0
    obtain ⟨o2, e2, h2⟩ := hs.sum _ _ [] h1
    rw [List.nil_append] at e2
    rw [List.nil_append] at e2
    simp only [if_pos hk, e1, e2, Option.bind_eq_bind, Option.bind_some, pad_take]
    obtain ⟨i, e3, h3⟩ := hs.write _ _ (((S.H key ++ zeros (S.blockSize - (S.H key).length)).take S.blockSize).map (· ^^^ 0x36#8)) h0
    rw [e3]
    exact ⟨_, rfl, ⟨by simpa using h3, ⟨_, h2⟩, rfl, Or.inl ⟨rfl, rfl, rfl⟩⟩⟩
  · simp only [if_neg hk, Option.bind_eq_bind, Option.bind_some, pad_take]
    obtain ⟨i, e3, h3⟩ := hs.write _ _ (((key ++ zeros (S.blockSize - key.length)).take S.blockSize).map (· ^^^ 0x36#8)) h0
    rw [e3]
    exact ⟨_, rfl, ⟨by simpa using h3, ⟨_, h0⟩, rfl, Or.inl ⟨rfl, rfl, rfl⟩⟩⟩

/-- Keys with one key block give the same behaviour. -/
theorem same_block (hs : Sim I S R) {s₀ : σ} (h0 : R s₀ []) (hM : Restores M R) (k k' : Bytes)
    (hk : keyBlock S.blockSize S.H k = keyBlock S.blockSize S.H k') :
    ∃ h h', new I s₀ k = some h ∧ new I s₀ k' = some h' ∧ ∀ ops, (impl I M).run h ops = (impl I M).run h' ops := by
  obtain ⟨h, e, hr⟩ := new_rel (M := M) hs h0 k
  obtain ⟨h', e', hr'⟩ := new_rel (M := M) hs h0 k'
  refine ⟨h, h', e, e', fun ops => ?_⟩
  rw [(rel_sim hs hM).run ops h [] hr, (rel_sim hs hM).run ops h' [] hr', hk]

/-- What RFC 2104 asks of the object. -/
def spec (S : HashSpec) (key : Bytes) : HashSpec :=
  { H := Spec.HMAC.hmac S.blockSize S.H key, size := S.size, blockSize := S.blockSize }

/-- Every history on the object `hmac.New` returns is RFC 2104's, and no `Reset` panics. -/
def Correct (I : HashImpl σ) (M : Option (Saver σ)) (s₀ : σ) (S : HashSpec) : Prop :=
  ∀ key, ∃ h, new I s₀ key = some h ∧ Refines (impl I M) h (spec S key) ∧
    ∀ ops h', (impl I M).exec h ops = some h' → h'.dead = false

theorem correct_of_sim (hs : Sim I S R) {s₀ : σ} (h0 : R s₀ []) (hM : Restores M R) (hL : ∀ m, (S.H m).length ≤ S.blockSize) :
    Correct I M s₀ S := by
  intro key
  obtain ⟨h, e, hr⟩ := new_rel (M := M) hs h0 key
  rw [keyBlock_eq hL] at hr
  exact ⟨h, e, (rel_sim hs hM).refines hr, fun ops h' hx => ((rel_sim hs hM).exec ops h [] h' hr hx).alive⟩

/-- A hash object without `MarshalBinary` needs the contract only. -/
theorem correct_of_refines {s₀ : σ} (hr : Refines I s₀ S) (hL : ∀ m, (S.H m).length ≤ S.blockSize) : Correct I none s₀ S :=
  correct_of_sim hr.sim hr (fun M' h => by cases h) hL

end
end Verif.HMAC
