import Verif.Lemmas.Esch
/-
C29: esch.New256 and esch.New384.
-/
namespace Verif.Props
open Esch (impl new)

/-- The contract. -/
def eschSpec (hs : Nat) : HashSpec :=
  { H := Spec.Esch.hash (if hs = 256 then Spec.Esch.esch256 else Spec.Esch.esch384), size := hs / 8, blockSize := 16 }

/-- The divisions `ps` of a message into `Write` calls after which `Sum` is right: the message is empty,
or its length is not a multiple of the block size, or it came in a single `Write`. -/
def EschSafe (ps : List Bytes) : Prop :=
  ps.flatten = [] ∨ ps.flatten.length % 16 ≠ 0 ∨ ps.length ≤ 1

/-- C29, the part that holds: on every history whose `Sum`s come after safe divisions, both digests are
Esch256/Esch384 of the bytes written since the last `Reset`. Missing: the remaining divisions, where the
code is wrong (see the `violated` theorems). -/
theorem C29_esch_partial (hs : Nat) (d : Esch.Digest) (h : hs = 256 ∨ hs = 384) (hd : new hs = some d) :
    RefinesOn (SumsOn EschSafe []) (impl hs) d (eschSpec hs) := by
  obtain ⟨r, I, hv, hI⟩ : ∃ r I, Esch.Var hs r I ∧ (eschSpec hs).H = Spec.Esch.hash I := by
    rcases h with rfl | rfl
    · exact ⟨6, _, Or.inl ⟨rfl, rfl, rfl⟩, rfl⟩
    · exact ⟨8, _, Or.inr ⟨rfl, rfl, rfl⟩, rfl⟩
  have hd0 : d = Esch.reset d := by
    rcases h with rfl | rfl
    · cases hd; rfl
    · cases hd; rfl
  refine refinesOn_sums_of_sim EschSafe _ _ _
    (fun e ps => Esch.Core e ∧ (Esch.Lazy r I e ps.flatten ∨ Esch.Full r I e ps.flatten) ∧ (ps.length ≤ 1 → Esch.Lazy r I e ps.flatten)) ?_ ?_ ?_ ?_ ?_ ?_
  · rw [hd0]
    obtain ⟨h1, h2⟩ := Esch.lazy_new hv d
    exact ⟨h1, Or.inl h2, fun _ => h2⟩
  · rintro e ps p ⟨h1, h2, h3⟩
    refine ⟨_, rfl, ?_⟩
    rw [List.flatten_append, List.flatten_cons, List.flatten_nil, List.append_nil]
    have hstep : Esch.Core (Esch.write hs e p) ∧
        (Esch.Lazy r I (Esch.write hs e p) (ps.flatten ++ p) ∨ Esch.Full r I (Esch.write hs e p) (ps.flatten ++ p)) := by
      rcases h2 with h2 | h2
      · exact Esch.write_lazy hv h1 h2 p
      · obtain ⟨g1, g2⟩ := Esch.write_full hv h1 h2 p
        refine ⟨g1, ?_⟩
        by_cases hp : p = []
        · rw [if_pos hp] at g2
          rw [hp, List.append_nil, ← hp]; exact Or.inr g2
        · rw [if_neg hp] at g2; exact Or.inl g2
    refine ⟨hstep.1, hstep.2, fun hl => ?_⟩
    have hps : ps = [] := by
      rw [List.length_append, List.length_cons, List.length_nil] at hl
      exact List.length_eq_zero_iff.mp (by omega)
    subst hps
    have hf := (h3 (by decide)).full_nil (by exact (h3 (by decide)).2.1)
    obtain ⟨g1, g2⟩ := Esch.write_full hv h1 hf.2 p
    by_cases hp : p = []
    · rw [if_pos hp] at g2
      have := g2.lazy_nil
      subst hp
      exact this
    · rw [if_neg hp] at g2; exact g2
  · rintro e ps b ⟨h1, h2, h3⟩ hP
    refine ⟨e, ?_, h1, h2, h3⟩
    have hl : Esch.Lazy r I e ps.flatten := by
      rcases h2 with h2 | h2
      · exact h2
      · rcases hP with hP | hP | hP
        · rw [hP] at h2 ⊢; exact h2.lazy_nil
        · exact absurd h2.1 hP
        · exact h3 hP
    show some (e, b ++ Esch.checkSum hs e) = _
    rw [hl.checkSum hv h1, hI]
  · rintro e ps _
    obtain ⟨h1, h2⟩ := Esch.lazy_new hv e
    exact ⟨h1, Or.inl h2, fun _ => h2⟩
  · rintro e ps _; rfl
  · rintro e ps _; rfl

/-- The constructor accepts exactly the two sizes. -/
theorem C29_esch_new (n : Int) : (new n).isSome ↔ n = 256 ∨ n = 384 := by
  unfold new
  by_cases h0 : n = 0
  · subst h0; simp
  · rw [if_neg h0]
    by_cases h1 : n ≠ 256 ∧ n ≠ 384
    · rw [if_pos h1]; simp; omega
    · rw [if_neg h1]; simp; omega

/-- `Sum` of a message given in one `Write`, of any length. -/
theorem C29_esch_oneshot (hs : Nat) (d : Esch.Digest) (h : hs = 256 ∨ hs = 384) (hd : new hs = some d) (m b : Bytes) :
    (impl hs).run d [.write m, .sum b] = [.wrote m.length, .bytes (b ++ (eschSpec hs).H m)] :=
  C29_esch_partial hs d h hd [.write m, .sum b] ⟨Or.inr (Or.inr (Nat.le_refl 1)), trivial⟩

set_option maxRecDepth 100000 in
/-- Cutting 16 bytes into 8 and 8 changes the digest. -/
theorem C29_esch_split_violated : ∃ d, new 256 = some d ∧ ¬ Refines (impl 256) d (eschSpec 256) := by
  refine ⟨_, rfl, not_refines [.write (zeros 8), .write (zeros 8), .sum []] ?_⟩
  decide +kernel
set_option maxRecDepth 100000 in
/-- So does an empty `Write` after a complete block. -/
theorem C29_esch_empty_write_violated : ∃ d, new 384 = some d ∧
    (impl 384).run d [.write (zeros 16), .write [], .sum []] ≠ (eschSpec 384).run [] [.write (zeros 16), .write [], .sum []] := by
  refine ⟨_, rfl, ?_⟩
  decide +kernel

-- Tests: a history that meets the hypothesis, and vectors of esch_test.go.
example : SumsOn EschSafe [] [.write (zeros 16), .sum [], .write (zeros 7), .sum [], .reset, .write (zeros 3), .write (zeros 2), .sum []] :=
  ⟨Or.inr (Or.inr (by decide)), Or.inr (Or.inl (by decide)), Or.inr (Or.inl (by decide)), trivial⟩
set_option maxRecDepth 100000 in
example : (new 256).map (fun d => ((impl 256).run d [.write (hex "00010203040506"), .sum []]).getLast?) =
    some (some (.bytes (hex "12E076105E60FD4080CA7546340E180AAA4C277C1495E958DF869CEAF0843F2E"))) := by decide +kernel
set_option maxRecDepth 100000 in
example : (new 384).map (fun d => ((impl 384).run d [.write (hex "00010203"), .sum []]).getLast?) =
    some (some (.bytes (hex "900C76A75AD5FEC6924934E8EADC78BCB3951E241A2AC9301E6D35895689BA7C93411A5B6DEF5A2F87248AFF1BDD240E"))) := by decide +kernel
set_option maxRecDepth 100000 in
example : Spec.Esch.hash Spec.Esch.esch384 (hex "000102030405060708090A0B0C0D0E0F10111213141516") =
    hex "DCAD7D7394C64CB59BE79EE06A42FE5A420C5718156C6D3CC44ED07E699DDBE79BB2919D65EC4A24B5ECE4AFB11DFF54" := by decide +kernel

end Verif.Props
