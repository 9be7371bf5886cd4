import Verif.Lemmas.AsconHash
import Verif.Lemmas.AsconAEAD
/-
C26: ascon.NewMAC.
-/
namespace Verif.Props
open Ascon (macImpl newMac)

/-- The contract. -/
def asconMacSpec (key : Bytes) : HashSpec := { H := Spec.Ascon.mac key, size := 16, blockSize := 32 }

theorem macAbsorb_snoc (m : Bytes) (ms : List Bytes) : ∀ s, Spec.Ascon.macAbsorb s (ms ++ [m]) =
    Spec.Ascon.macAbsorb (ms.foldl (fun s m => Spec.Ascon.p 12 (Spec.Ascon.absorb32 s m)) s) [m] := by
  induction ms with
  | nil => intro s; rfl
  | cons a ms ih =>
    intro s
    rw [List.foldl_cons, ← ih]
    cases ms <;> rfl

theorem getBE64_pad0 : getBE64 ([0x80#8] ++ zeros 31) 0 = 0x80 <<< 56 ∧ getBE64 ([0x80#8] ++ zeros 31) 8 = 0 ∧
    getBE64 ([0x80#8] ++ zeros 31) 16 = 0 ∧ getBE64 ([0x80#8] ++ zeros 31) 24 = 0 := by decide

theorem mac_finish {d : Ascon.Mac} {s₀ : Ascon.State} {m : Bytes}
    (h : BufRepr 32 Ascon.macBlock s₀ d.s d.buf d.len m) :
    ∃ s, Ascon.macFinish d = some s ∧ Ascon.toS s = Spec.Ascon.macAbsorb (Ascon.toS s₀) (Spec.Ascon.pad 32 m) := by
  have hlt := h.nx_lt (by decide)
  unfold Ascon.macFinish
  rw [if_neg (by omega)]
  refine ⟨_, rfl, ?_⟩
  rw [Ascon.rounds_eq _ 12 (by decide), Ascon.pad_eq 32 m (by decide), macAbsorb_snoc]
  have := Ascon.foldl_sim Ascon.toS Ascon.macBlock (fun s m => Spec.Ascon.p 12 (Spec.Ascon.absorb32 s m)) (fun s a => by
    unfold Ascon.macBlock; rw [Ascon.rounds_eq _ _ (by decide)]; rfl) (fullBlocks 32 m) s₀
  rw [← this, ← h.state]
  by_cases h0 : d.len = 0
  · rw [if_pos h0]
    have hr : restBlock 32 m = [] := List.length_eq_zero_iff.mp (by rw [restBlock_length, ← h.nx_eq, h0])
    have hz : m.length % 32 = 0 := by rw [← h.nx_eq, h0]
    rw [hr, hz]
    show Spec.Ascon.p 12 _ = Spec.Ascon.p 12 _
    congr 1
    obtain ⟨g0, g1, g2, g3⟩ := getBE64_pad0
    simp only [Spec.Ascon.absorb32]
    have e : ([] ++ [0x80#8] ++ zeros (32 - 1 - 0) : Bytes) = [0x80#8] ++ zeros 31 := rfl
    rw [e]
    rw [g0, g1, g2, g3]
    simp [Ascon.toS, Ascon.State.xor0]
  · rw [if_neg h0]
    simp only []
    rw [Ascon.padTail h.xlen hlt, h.pend, h.nx_eq]
    rfl

theorem mac_init (key : Bytes) (d : Ascon.Mac) (hd : newMac key = some d) :
    Ascon.toS d.s = Spec.Ascon.p 12 ⟨0x80808c0000000080, getBE64 key 0, getBE64 key 8, 0, 0⟩ ∧ d.buf.length = 32 ∧ d.len = 0 := by
  unfold newMac at hd
  by_cases hk : key.length ≠ 16
  · rw [if_pos hk] at hd; exact absurd hd (by simp)
  · rw [if_neg hk] at hd
    have hk' : key.length = 16 := by omega
    injection hd with hd
    subst hd
    refine ⟨?_, rfl, rfl⟩
    rw [Ascon.rounds_eq _ 12 (by decide)]
    rw [hk']
    rfl

/-- The states that stand for message `m`. -/
def MacInv (key m : Bytes) (d : Ascon.Mac) : Prop :=
  ∃ s₀, Ascon.toS s₀ = Spec.Ascon.p 12 ⟨0x80808c0000000080, getBE64 key 0, getBE64 key 8, 0, 0⟩ ∧
    BufRepr 32 Ascon.macBlock s₀ d.s d.buf d.len m

theorem macInv_new {key : Bytes} {d : Ascon.Mac} (hd : newMac key = some d) : MacInv key [] d := by
  obtain ⟨h1, h2, h3⟩ := mac_init key d hd
  refine ⟨d.s, h1, ?_⟩
  rw [h3]
  exact BufRepr.init _ _ _ h2

theorem macInv_write {key m : Bytes} {d : Ascon.Mac} (h : MacInv key m d) (p : Bytes) : MacInv key (m ++ p) (Ascon.macWrite d p) := by
  obtain ⟨s₀, h1, h2⟩ := h
  exact ⟨s₀, h1, aWrite_spec _ (by decide) _ _ _ _ _ _ h2⟩

theorem macInv_finish {key m : Bytes} {d : Ascon.Mac} (h : MacInv key m d) :
    ∃ s, Ascon.macFinish d = some s ∧ Spec.Ascon.mac key m = be64 s.s0 ++ be64 s.s1 := by
  obtain ⟨s₀, h1, h2⟩ := h
  obtain ⟨s, e1, e2⟩ := mac_finish h2
  refine ⟨s, e1, ?_⟩
  rw [h1] at e2
  unfold Spec.Ascon.mac
  simp only
  rw [← e2]
  rfl

/-- C26: every history of `Write`, `Sum`, `Size`, `BlockSize` on a `MAC` (there is no `Reset`) is that of
Ascon-MAC under the key. -/
theorem C26_ascon_mac (key : Bytes) (d : Ascon.Mac) (hd : newMac key = some d) :
    RefinesOn NoReset macImpl d (asconMacSpec key) := by
  refine refinesOn_noReset_of_sim _ _ _ (fun d m => MacInv key m d) (macInv_new hd) ?_ ?_ (fun _ _ _ => rfl) (fun _ _ _ => rfl)
  · intro s m p h
    exact ⟨_, rfl, macInv_write h p⟩
  · intro s m b h
    refine ⟨s, ?_, h⟩
    obtain ⟨t, e1, e2⟩ := macInv_finish h
    show (Ascon.macSum s b).map _ = _
    unfold Ascon.macSum
    rw [e1]
    show some (s, b ++ be64 t.s0 ++ be64 t.s1) = some (s, b ++ Spec.Ascon.mac key m)
    rw [e2, List.append_assoc]

/-- C26: after any writes, `Verify` accepts exactly the tag of the message. -/
theorem C26_ascon_verify (key : Bytes) (d : Ascon.Mac) (hd : newMac key = some d) (ps : List Bytes) (mac : Bytes) :
    Ascon.macVerify (ps.foldl Ascon.macWrite d) mac = some (decide (mac = Spec.Ascon.mac key ps.flatten)) := by
  have hI : ∀ (ps : List Bytes) m d, MacInv key m d → MacInv key (m ++ ps.flatten) (ps.foldl Ascon.macWrite d) := by
    intro ps
    induction ps with
    | nil => intro m d h; rw [List.flatten_nil, List.append_nil]; exact h
    | cons p ps ih =>
      intro m d h
      rw [List.foldl_cons, List.flatten_cons, ← List.append_assoc]
      exact ih _ _ (macInv_write h p)
  have h := hI ps [] d (macInv_new hd)
  rw [List.nil_append] at h
  obtain ⟨s, e1, e2⟩ := macInv_finish h
  unfold Ascon.macVerify
  by_cases hl : mac.length ≠ 16
  · rw [if_pos hl, decide_eq_false]
    intro he
    rw [he, e2] at hl
    exact hl rfl
  · rw [if_neg hl, e1, e2]
    have hl' : mac.length = 16 := by omega
    have hc := Ascon.or_halves (s.s0 ^^^ getBE64 mac 0) (s.s1 ^^^ getBE64 mac 8)
    rw [Ascon.xor_eq_zero, Ascon.xor_eq_zero, Ascon.tag_match mac hl'] at hc
    show some (decide _) = _
    congr 1
    exact decide_eq_decide.mpr hc

/-- The constructor accepts exactly the 16-byte keys. -/
theorem C26_ascon_new (key : Bytes) : (newMac key).isSome ↔ key.length = 16 := by
  unfold newMac
  by_cases h : key.length = 16
  · rw [if_neg (by omega)]; simp [h]
  · rw [if_pos h]; simp [h]

/-- The hypothesis is met. -/
example : ∃ d, newMac ((List.range 16).map (BitVec.ofNat 8)) = some d ∧
    macImpl.run d [.write [1, 2], .sum [], .write [3], .sum [9]] =
      [.wrote 2, .bytes (Spec.Ascon.mac ((List.range 16).map (BitVec.ofNat 8)) [1, 2]), .wrote 1,
       .bytes (9 :: Spec.Ascon.mac ((List.range 16).map (BitVec.ofNat 8)) [1, 2, 3])] := by
  refine ⟨_, rfl, ?_⟩
  exact C26_ascon_mac _ _ rfl _ (by simp [NoReset])
set_option maxRecDepth 100000 in
/-- Test: known answer. -/
example : Spec.Ascon.mac ((List.range 16).map (BitVec.ofNat 8)) [] = hex "EB1AF688825D66BF2D53E135F9323315" := by decide +kernel

end Verif.Props
