import Verif.Props.C33_Streebog
/-
C34: MarshalBinary / UnmarshalBinary of gost/gost34112012.
-/
namespace Verif.Props
open Verif.Gost12

/-- The shape of every object made by `New`. -/
structure Gost12Shape (d : Digest) : Prop where
  size : d.size = 32 ∨ d.size = 64
  hsh : d.hsh.length = 64
  chk : d.chk.length = 64
  buf : d.buf.length < 64

theorem blockXor_length (x y : Bytes) : (blockXor x y).length = 64 := by
  unfold blockXor
  exact (setLoop (fun i _ => at8 x i ^^^ at8 y i) 64 (zeros 64) (by simp)).1

theorem add512bit_length (x y : Bytes) : (add512bit x y).length = 64 := by
  unfold add512bit
  exact forLoop_inv (a := 0) (b := 64) (fun _ (st : BitVec 16 × Bytes) => st.2.length = 64) (Nat.zero_le _) rfl
    (fun j st _ _ h => by simp only [List.length_set]; exact h)

theorem writeLoop_shape : ∀ fuel (d : Digest), d.buf.length ≤ fuel → (d.size = 32 ∨ d.size = 64) → d.hsh.length = 64 → d.chk.length = 64 →
    Gost12Shape (writeLoop fuel d) := by
  intro fuel
  induction fuel with
  | zero => intro d h1 h2 h3 h4; exact ⟨h2, h3, h4, by rw [writeLoop]; omega⟩
  | succ n ih =>
    intro d h1 h2 h3 h4
    rw [writeLoop]
    split
    · refine ih _ ?_ h2 ?_ ?_
      · simp only [List.length_drop]; omega
      · dsimp only; exact blockXor_length _ _
      · dsimp only; exact add512bit_length _ _
    · exact ⟨h2, h3, h4, by omega⟩

theorem reset_shape {d : Digest} (h : d.size = 32 ∨ d.size = 64) : Gost12Shape (reset d) :=
  ⟨h, by unfold reset; simp only; split <;> rfl, rfl, by show 0 < 64; decide⟩

theorem checkSum_ok {d : Digest} (h : d.buf.length < 64) : (checkSum d).isSome := by
  unfold checkSum
  rw [if_neg (by omega)]
  rfl

theorem exec_shape : ∀ (ops : List Op) (d d' : Digest), Gost12Shape d → impl.exec d ops = some d' → Gost12Shape d' := by
  intro ops
  induction ops with
  | nil => intro d d' h he; rw [← Option.some.inj he]; exact h
  | cons o ops ih =>
    intro d d' h he
    cases o with
    | write p => exact ih (write d p) _ (writeLoop_shape _ { d with buf := d.buf ++ p } (Nat.le_refl _) h.size h.hsh h.chk) he
    | sum b =>
      obtain ⟨r, hr⟩ := Option.isSome_iff_exists.mp (checkSum_ok h.buf)
      have : impl.sum d b = some (d, b ++ r) := by show (checkSum d).map _ = _; rw [hr]; rfl
      simp only [HashImpl.exec, this] at he
      exact ih _ _ h he
    | reset => exact ih _ _ (reset_shape h.size) he
    | size => exact ih _ _ h he
    | blockSize => exact ih _ _ h he

theorem new_shape {size : Nat} {d : Digest} (h : new size = some d) : Gost12Shape d := by
  unfold new at h
  split at h
  · exact absurd h (Option.some_ne_none d).symm
  · rw [← Option.some.inj h]; exact reset_shape (by simp only; omega)

theorem at8_mid (a b : Bytes) (x : Byte) : at8 (a ++ x :: b) a.length = x := by
  unfold at8; simp

/-- Saving any object and loading it into any other (one that `New` made and a history was run on) gives back exactly the saved object, so every further history is answered alike. -/
theorem C34_roundTrip (size size' : Nat) (d₀ r₀ d r : Digest) (hd₀ : new size = some d₀) (hr₀ : new size' = some r₀)
    (ops ops' : List Op) (hd : impl.exec d₀ ops = some d) (hr : impl.exec r₀ ops' = some r) :
    unmarshal r (marshal d) = some d ∧
    ∃ d', unmarshal r (marshal d) = some d' ∧ ∀ more, impl.run d' more = impl.run d more := by
  have sd := exec_shape ops _ _ (new_shape hd₀) hd
  have sr := exec_shape ops' _ _ (new_shape hr₀) hr
  suffices h : unmarshal r (marshal d) = some d from ⟨h, d, h, fun _ => rfl⟩
  obtain ⟨s1, s2, s3, s4⟩ := sd
  have hn : name.length = 8 := rfl
  have hl : (marshal d).length = 145 + d.buf.length := by
    unfold marshal
    simp only [List.length_append, be64_length, List.length_cons, List.length_nil, s2, s3, hn]
  unfold unmarshal
  have ht : (marshal d).take 8 = name := by
    unfold marshal
    simp only [List.append_assoc]
    exact List.take_left' rfl
  rw [if_neg (by omega), if_neg (not_not_intro ht)]
  have e1 : at8 (marshal d) 8 = BitVec.ofNat 8 d.size := by
    unfold marshal
    simp only [List.append_assoc, List.cons_append, List.nil_append]
    exact at8_mid name _ _
  have e2 : getBE64 (marshal d) 9 = d.n := by
    have : marshal d = (name ++ [BitVec.ofNat 8 d.size]) ++ (be64 d.n ++ (d.hsh ++ d.chk ++ d.buf)) := by
      unfold marshal; simp only [List.append_assoc]
    rw [this]
    have h9 : (name ++ [BitVec.ofNat 8 d.size]).length = 9 := rfl
    have := getBE64_be64 d.n (d.hsh ++ d.chk ++ d.buf)
    have key : ∀ (a b : Bytes) (k : Nat), a.length = k → getBE64 (a ++ b) k = getBE64 b 0 := by
      intro a b k hk
      unfold getBE64
      simp only [← hk, at8_append_right _ _ _ (Nat.le_refl _), at8_append_right a b _ (Nat.le_add_right a.length _), Nat.add_sub_cancel_left, Nat.sub_self, Nat.zero_add]
    rw [key _ _ 9 h9]
    exact this
  have hc : ∀ (x y : Bytes) (k : Nat), x.length = 64 → y.length = 64 → ∀ z : Bytes, goCopy x 0 (y ++ z) = y := by
    intro x y k hx hy z
    unfold goCopy
    rw [List.take_zero, List.nil_append, hx, Nat.sub_zero, Nat.zero_add, List.take_left' hy, List.drop_of_length_le (by rw [List.length_append]; omega), List.append_nil]
  have e3 : (marshal d).drop 17 = d.hsh ++ (d.chk ++ d.buf) := by
    unfold marshal
    rw [List.append_assoc, List.append_assoc (_ ++ _ ++ _)]
    exact List.drop_left' rfl
  have e4 : (marshal d).drop 81 = d.chk ++ d.buf := by
    rw [show 81 = 17 + 64 from rfl, ← List.drop_drop, e3]
    exact List.drop_left' s2
  have e5 : (marshal d).drop 145 = d.buf := by
    rw [show 145 = 81 + 64 from rfl, ← List.drop_drop, e4]
    exact List.drop_left' s3
  rw [e1, e2, e3, e4, e5, hc _ _ 0 sr.hsh s2, hc _ _ 0 sr.chk s3]
  have hz : (BitVec.ofNat 8 d.size).toNat = d.size := by rcases s1 with h | h <;> rw [h] <;> rfl
  rw [hz]

/-- What is accepted: 145 bytes or more beginning with `STREEBOG`. -/
theorem C34_accepts (r : Digest) (data : Bytes) : (unmarshal r data).isSome ↔ 145 ≤ data.length ∧ data.take 8 = ascii "STREEBOG" := by
  unfold unmarshal
  split
  · simp only [Option.isSome_none, Bool.false_eq_true, false_iff]; omega
  · split
    · rename_i h
      simp only [Option.isSome_none, Bool.false_eq_true, false_iff, not_and]
      intro _ h'; exact h h'
    · rename_i h1 h2
      simp only [Option.isSome_some, true_iff]
      refine ⟨by omega, ?_⟩
      by_cases h : data.take 8 = name
      · exact h
      · exact absurd h h2

theorem writeLoop_lt : ∀ fuel (d : Digest), d.buf.length ≤ fuel → (writeLoop fuel d).buf.length < 64 := by
  intro fuel
  induction fuel with
  | zero => intro d h; rw [writeLoop]; omega
  | succ n ih =>
    intro d h
    rw [writeLoop]
    split
    · exact ih _ (by simp only [List.length_drop]; omega)
    · omega

/-- Accepted input that buffers less than a block (fewer than 209 bytes in all) can be used without a panic, whatever the
history.  Missing from C34: longer accepted inputs, on which an immediate `Sum` panics (`C34_violated`). -/
theorem C34_safe_partial (r d : Digest) (data : Bytes) (h : unmarshal r data = some d) (hl : data.length < 209) (ops : List Op) :
    Out.panicked ∉ impl.run d ops := by
  have hb : d.buf.length < 64 := by
    unfold unmarshal at h
    split at h
    · exact absurd h (Option.some_ne_none d).symm
    · split at h
      · exact absurd h (Option.some_ne_none d).symm
      · rw [← Option.some.inj h]
        simp only [List.length_drop]; omega
  clear h hl
  induction ops generalizing d with
  | nil => simp [HashImpl.run]
  | cons o ops ih =>
    cases o with
    | write p =>
      have := ih (write d p) (writeLoop_lt _ _ (Nat.le_refl _))
      simp only [HashImpl.run, impl] at this ⊢
      simp [this]
    | sum b =>
      obtain ⟨x, hx⟩ := Option.isSome_iff_exists.mp (checkSum_ok hb)
      have hs : impl.sum d b = some (d, b ++ x) := by show (checkSum d).map _ = _; rw [hx]; rfl
      have := ih d hb
      simp only [HashImpl.run, hs]
      simp [this]
    | reset =>
      have := ih (reset d) (by show 0 < 64; decide)
      simp only [HashImpl.run, impl] at this ⊢
      simp [this]
    | size => have := ih d hb; simp only [HashImpl.run]; simp [this]
    | blockSize => have := ih d hb; simp only [HashImpl.run]; simp [this]

/-- Every accepted input of 209 bytes or more makes an immediate `Sum` panic. -/
theorem C34_violated (r d : Digest) (data : Bytes) (h : unmarshal r data = some d) (hl : 209 ≤ data.length) (b : Bytes) :
    impl.run d [.sum b] = [.panicked] := by
  have hb : 64 ≤ d.buf.length := by
    unfold unmarshal at h
    split at h
    · exact absurd h (Option.some_ne_none d).symm
    · split at h
      · exact absurd h (Option.some_ne_none d).symm
      · rw [← Option.some.inj h]
        simp only [List.length_drop]; omega
  have hc : impl.sum d b = none := by
    show (checkSum d).map _ = _
    unfold checkSum
    rw [if_pos hb]
    rfl
  simp [HashImpl.run, hc]

/-! The hypotheses of `C34_violated` are met. -/
set_option maxRecDepth 10000 in
example (r : Digest) : (unmarshal r (ascii "STREEBOG" ++ zeros 201)).isSome := (C34_accepts r _).mpr ⟨by decide, by decide⟩
set_option maxRecDepth 10000 in
example (r : Digest) : (unmarshal r (ascii "STREEBOG" ++ zeros 150)).isSome := (C34_accepts r _).mpr ⟨by decide, by decide⟩
example : (new 64).isSome ∧ (impl.exec (reset { size := 64, buf := [], n := 0, hsh := [], chk := [] }) [.write (zeros 3), .sum [], .write [1]]).isSome := by
  decide +kernel

end Verif.Props
