import Verif.Lemmas.Hamsi2
/-
Package hamsi: message expansion and the compression functions.
-/
namespace Verif.Hamsi
open Spec.Hamsi (g Variant expand bit)

theorem foldl_xor (P : Nat → Bool) (w : Nat → U32) : ∀ (l : List Nat) (a : U32),
    l.foldl (fun a i => if P i then a ^^^ w i else a) a = a ^^^ l.foldl (fun a i => if P i then a ^^^ w i else a) 0
  | [], a => by simp
  | i :: l, a => by
    rw [List.foldl_cons, List.foldl_cons, foldl_xor P w l, foldl_xor P w l (if P i then (0 : U32) ^^^ w i else 0)]
    by_cases h : P i <;> simp [h, BitVec.xor_assoc]

theorem and_bit (y k : Nat) : (y &&& (1 <<< k) ≠ 0) ↔ y.testBit k = true := by
  rw [Nat.one_shiftLeft]
  constructor
  · intro h
    by_contra hc
    apply h
    apply Nat.eq_of_testBit_eq
    intro i
    rw [Nat.testBit_and, Nat.testBit_two_pow, Nat.zero_testBit]
    by_cases e : k = i
    · subst e; simpa using hc
    · simp [e]
  · intro h e
    have := congrArg (fun z => z.testBit k) e
    simp [Nat.testBit_two_pow, h] at this

theorem makeT_eq (src : List (List U32)) (b : Bytes) (q z : Nat) :
    makeT src (8 * q) (at8 b q).toNat z = ((List.range 8).map (8 * q + ·)).foldl (fun a i => if bit b i then a ^^^ g (src.getD i []) z else a) 0 := by
  unfold makeT forLoop
  rw [List.foldl_map, List.range_eq_range']
  apply List.foldl_ext
  intro a k hk
  have hk : k < 8 := by simpa using hk
  have h1 : bit b (8 * q + k) = (at8 b q).toNat.testBit (7 - k) := by
    unfold bit
    rw [show (8 * q + k) / 8 = q by omega, show (8 * q + k) % 8 = k by omega]
    rfl
  rw [h1]
  by_cases h : (at8 b q).toNat.testBit (7 - k) = true
  · rw [if_pos ((and_bit _ _).2 h), if_pos h]; rfl
  · rw [if_neg (fun e => h ((and_bit _ _).1 e)), if_neg h]

theorem range8 (n : Nat) : List.range (8 * (n + 1)) = List.range (8 * n) ++ (List.range 8).map (8 * n + ·) := by
  rw [show 8 * (n + 1) = 8 * n + 8 by omega, List.range_add]

theorem load_eq (src : List (List U32)) (b : Bytes) (z : Nat) : ∀ n, 
    forLoop 1 (n + 1) (fun a q => a ^^^ makeT src (8 * q) (at8 b q).toNat z) (makeT src 0 (at8 b 0).toNat z) =
      (List.range (8 * (n + 1))).foldl (fun a i => if bit b i then a ^^^ g (src.getD i []) z else a) 0
  | 0 => by
    show makeT src (8 * 0) (at8 b 0).toNat z = _
    rw [makeT_eq]; rfl
  | n + 1 => by
    have ih := load_eq src b z n
    unfold forLoop at *
    rw [show n + 1 + 1 - 1 = (n + 1 - 1) + 1 by omega, List.range'_concat, List.foldl_append, ih, range8 (n + 1), List.foldl_append, List.foldl_cons, List.foldl_nil,
      foldl_xor (bit b) _ ((List.range 8).map _), show 1 + 1 * (n + 1 - 1) = n + 1 by omega, makeT_eq]

theorem loadM_eq (c : Cfg) (v : Variant) (hB : c.B = v.B) (hp : 0 < v.B) (hG : c.Tsrc = v.G) (b : Bytes) (z : Nat) : loadM c b z = expand v b z := by
  unfold loadM expand
  rw [hB, hG]
  obtain ⟨n, e⟩ : ∃ n, v.B = n + 1 := ⟨v.B - 1, by omega⟩
  rw [e]; exact load_eq v.G b z n

/-- The configuration c computes the variant v. -/
structure Computes (c : Cfg) (v : Variant) : Prop where
  hB : c.B = v.B
  pos : 0 < v.B
  proc : ∀ h b, process c h b = Spec.Hamsi.compress v Spec.Hamsi.alphaN v.rounds h b
  procF : ∀ h b, processFinal c h b = Spec.Hamsi.compress v Spec.Hamsi.alphaF v.roundsF h b

theorem map_eq (σ : List Nat) (keep outs : List Nat) (he : outs = keep.map (σ.getD · 0)) (hk : ∀ k ∈ keep, k < σ.length) (R : Regs) (h : List U32) :
    (List.range outs.length).map (fun z => h.getD z 0 ^^^ R (outs.getD z 0)) = (List.range keep.length).map fun z => g h z ^^^ g (σ.map R) (keep.getD z 0) := by
  have hl : outs.length = keep.length := by rw [he, List.length_map]
  rw [hl]
  apply List.map_congr_left
  intro z hz
  have hz := List.mem_range.1 hz
  have hm : keep.getD z 0 ∈ keep := by
    simp only [List.getD_eq_getElem?_getD, List.getElem?_eq_getElem hz, Option.getD_some]; exact List.getElem_mem hz
  rw [getD_map σ R _ (hk _ hm), he]
  congr 2
  simp only [List.getD_eq_getElem?_getD, List.getElem?_map, List.getElem?_eq_getElem hz, Option.map_some, Option.getD_some]

theorem tab256 : Tsrc256 = Spec.Hamsi.G256 := by decide +kernel
theorem tab512 : Tsrc512 = Spec.Hamsi.G512 := by decide +kernel
theorem alN256 : ALPHA_N256 = Spec.Hamsi.alphaN := by decide +kernel
theorem alF256 : ALPHA_F256 = Spec.Hamsi.alphaF := by decide +kernel
theorem alN512 : ALPHA_N512 = Spec.Hamsi.alphaN := by decide +kernel
theorem alF512 : ALPHA_F512 = Spec.Hamsi.alphaF := by decide +kernel

theorem place256 (E F : Nat → U32) : Spec.Hamsi.place [2, 3, 4, 5, 10, 11, 12, 13] F (Spec.Hamsi.place [0, 1, 6, 7, 8, 9, 14, 15] E (List.replicate 16 0)) =
    [E 0, E 1, F 0, F 1, F 2, F 3, E 2, E 3, E 4, E 5, F 4, F 5, F 6, F 7, E 6, E 7] := by
  simp [Spec.Hamsi.place, List.range, List.range.loop, List.replicate]

theorem place512 (E F : Nat → U32) : Spec.Hamsi.place [2, 3, 6, 7, 8, 9, 12, 13, 18, 19, 22, 23, 24, 25, 28, 29] F (Spec.Hamsi.place [0, 1, 4, 5, 10, 11, 14, 15, 16, 17, 20, 21, 26, 27, 30, 31] E (List.replicate 32 0)) =
    [E 0, E 1, F 0, F 1, E 2, E 3, F 2, F 3, F 4, F 5, E 4, E 5, F 6, F 7, E 6, E 7, E 8, E 9, F 8, F 9, E 10, E 11, F 10, F 11, F 12, F 13, E 12, E 13, F 14, F 15, E 14, E 15] := by
  simp [Spec.Hamsi.place, List.range, List.range.loop, List.replicate]

theorem concat256 (iv : List U32) (out : List Nat) (h : List U32) (b : Bytes) :
    σ256.map (regs0 cfg256 h b) = Spec.Hamsi.concat (Spec.Hamsi.small iv out) b h := by
  have e : loadM cfg256 b = expand (Spec.Hamsi.small iv out) b := by
    funext z; exact loadM_eq cfg256 (Spec.Hamsi.small iv out) rfl (by show 0 < 4; omega) tab256 b z
  unfold regs0 Spec.Hamsi.concat
  rw [e]
  generalize expand (Spec.Hamsi.small iv out) b = E
  refine Eq.trans ?_ (place256 E (g h)).symm
  simp [σ256, g]

theorem concat512 (iv : List U32) (out : List Nat) (h : List U32) (b : Bytes) :
    σ512.map (regs0 cfg512 h b) = Spec.Hamsi.concat (Spec.Hamsi.large iv out) b h := by
  have e : loadM cfg512 b = expand (Spec.Hamsi.large iv out) b := by
    funext z; exact loadM_eq cfg512 (Spec.Hamsi.large iv out) rfl (by show 0 < 8; omega) tab512 b z
  unfold regs0 Spec.Hamsi.concat
  rw [e]
  generalize expand (Spec.Hamsi.large iv out) b = E
  refine Eq.trans ?_ (place512 E (g h)).symm
  simp [σ512, g]

theorem nd256 : σ256.Nodup ∧ 32 ∉ σ256 ∧ sm.alpha.length = σ256.length ∧ (∀ p ∈ sm.cols, Ok σ256 p) ∧ (∀ p ∈ sm.diags, Ok σ256 p) := by decide +kernel
theorem nd512 : σ512.Nodup ∧ 32 ∉ σ512 ∧ lg.alpha.length = σ512.length ∧ (∀ p ∈ lg.cols, Ok σ512 p) ∧ (∀ p ∈ lg.diags, Ok σ512 p) := by decide +kernel

theorem computes256 (iv : List U32) (out : List Nat) : Computes cfg256 (Spec.Hamsi.small iv out) := by
  obtain ⟨h1, h2, h3, h4, h5⟩ := nd256
  refine ⟨rfl, by show 0 < 4; omega, ?_, ?_⟩
  · intro h b
    have hr := rounds_abs (Spec.Hamsi.small iv out) σ256 h1 h2 h3 h4 h5 Spec.Hamsi.alphaN (List.range 3) (regs0 cfg256 h b)
    rw [concat256 iv out] at hr
    have e : cfg256.progN = (List.range 3).map fun r => (r, roundP σ256 (Spec.Hamsi.small iv out).alpha (Spec.Hamsi.small iv out).cols (Spec.Hamsi.small iv out).diags) := rounds256_eq
    unfold process Spec.Hamsi.compress
    dsimp only
    rw [show (Spec.Hamsi.small iv out).rounds = 3 from rfl, ← hr, e, show cfg256.alphaN = Spec.Hamsi.alphaN from alN256]
    exact map_eq σ256 sm.keep outs256 (by decide +kernel) (by decide +kernel) _ h
  · intro h b
    have hr := rounds_abs (Spec.Hamsi.small iv out) σ256 h1 h2 h3 h4 h5 Spec.Hamsi.alphaF (List.range 6) (regs0 cfg256 h b)
    rw [concat256 iv out] at hr
    have e : cfg256.progF = (List.range 6).map fun r => (r, roundP σ256 (Spec.Hamsi.small iv out).alpha (Spec.Hamsi.small iv out).cols (Spec.Hamsi.small iv out).diags) := by
      show (List.range 6).map (fun r => (r, final256)) = _
      rw [final256_eq]; rfl
    unfold processFinal Spec.Hamsi.compress
    dsimp only
    rw [show (Spec.Hamsi.small iv out).roundsF = 6 from rfl, ← hr, e, show cfg256.alphaF = Spec.Hamsi.alphaF from alF256]
    exact map_eq σ256 sm.keep outs256 (by decide +kernel) (by decide +kernel) _ h

theorem computes512 (iv : List U32) (out : List Nat) : Computes cfg512 (Spec.Hamsi.large iv out) := by
  obtain ⟨h1, h2, h3, h4, h5⟩ := nd512
  refine ⟨rfl, by show 0 < 8; omega, ?_, ?_⟩
  · intro h b
    have hr := rounds_abs (Spec.Hamsi.large iv out) σ512 h1 h2 h3 h4 h5 Spec.Hamsi.alphaN (List.range 6) (regs0 cfg512 h b)
    rw [concat512 iv out] at hr
    have e : cfg512.progN = (List.range 6).map fun r => (r, roundP σ512 (Spec.Hamsi.large iv out).alpha (Spec.Hamsi.large iv out).cols (Spec.Hamsi.large iv out).diags) := by
      show (List.range 6).map (fun r => (r, round512)) = _
      rw [round512_eq]; rfl
    unfold process Spec.Hamsi.compress
    dsimp only
    rw [show (Spec.Hamsi.large iv out).rounds = 6 from rfl, ← hr, e, show cfg512.alphaN = Spec.Hamsi.alphaN from alN512]
    exact map_eq σ512 lg.keep outs512 (by decide +kernel) (by decide +kernel) _ h
  · intro h b
    have hr := rounds_abs (Spec.Hamsi.large iv out) σ512 h1 h2 h3 h4 h5 Spec.Hamsi.alphaF (List.range 12) (regs0 cfg512 h b)
    rw [concat512 iv out] at hr
    have e : cfg512.progF = (List.range 12).map fun r => (r, roundP σ512 (Spec.Hamsi.large iv out).alpha (Spec.Hamsi.large iv out).cols (Spec.Hamsi.large iv out).diags) := by
      show (List.range 12).map (fun r => (r, final512)) = _
      rw [final512_eq]; rfl
    unfold processFinal Spec.Hamsi.compress
    dsimp only
    rw [show (Spec.Hamsi.large iv out).roundsF = 12 from rfl, ← hr, e, show cfg512.alphaF = Spec.Hamsi.alphaF from alF512]
    exact map_eq σ512 lg.keep outs512 (by decide +kernel) (by decide +kernel) _ h

end Verif.Hamsi
