import Verif.Lemmas.JH2Obj
import Verif.Lemmas.JH1Obj
import Verif.HistAuto
/-
C38: packages jh2 (all four sizes) and jh (256 bits).
-/
namespace Verif.Props

/-- jh2: the full contract against the JH standard for every history whose messages are below 2^64 bytes. -/
theorem C38_jh2_contract (hs : Nat) (hz : hs = 28 ∨ hs = 32 ∨ hs = 48 ∨ hs = 64) :
    RefinesOn (Fits (2 ^ 64)) JH2.impl (JH2.new hs) { H := Spec.JH.hash hs, size := hs, blockSize := 64 } := by
  refine refinesOn_fits_of_sim _ JH2.impl _ _ (JH2.Rep hs) (JH2.reset_rep hs hz _ rfl rfl) ?_ ?_ ?_ ?_ ?_
  · intro d m p hr _
    exact ⟨(d.write p).1, rfl, JH2.write_rep hs d m p hr⟩
  · intro d m b hr hm
    refine ⟨d, ?_, hr⟩
    show some (d, b ++ d.checkSum) = _
    rw [JH2.checkSum_eq hs hz d m hr hm]
  · intro d m hr; exact JH2.reset_rep hs hz d hr.hhs hr.hiv
  · intro d m hr; exact hr.hhs
  · intro d m _; rfl

/-- jh, callers that leave at least 64 bytes of memory behind each slice they pass: the same contract. -/
theorem C38_jh_contract_partial (spare : Bytes → Bytes) (hsp : ∀ p, 64 ≤ (spare p).length) :
    RefinesOn (Fits (2 ^ 61)) (JH1.impl spare) JH1.new { H := Spec.JH.hash 32, size := 32, blockSize := 64 } := by
  refine refinesOn_fits_of_sim _ _ _ _ JH1.Rep (JH1.reset_rep _ (zeros_length 64)) ?_ ?_ ?_ ?_ ?_
  · intro d m p hr _
    exact JH1.write_rep d m p (spare p) hr (Or.inr (by have := hsp p; omega))
  · intro d m b hr hm
    refine ⟨d, ?_, hr⟩
    show some (d, b ++ d.checkSum) = _
    rw [JH1.checkSum_eq d m hr hm]
  · intro d m hr; exact JH1.reset_rep d hr.sl
  · intro d m _; rfl
  · intro d m _; rfl

/-- A write is harmless for package jh, whatever memory lies behind the slice: the bytes so far fill whole blocks, or the new ones fill the
open block. -/
def jhOk (t : Nat) : Op → Prop
  | .write p => (t % 64 = 0 ∨ 64 ≤ t % 64 + p.length) ∧ t + p.length < 2 ^ 61
  | _ => True

/-- Bytes since the last Reset. -/
def jhNext (t : Nat) : Op → Nat
  | .write p => t + p.length
  | .reset => 0
  | _ => t

/-- jh, any caller: the contract holds on the histories in which no write leaves an already open block open. -/
theorem C38_jh_aligned_partial (spare : Bytes → Bytes) :
    RefinesOn (Permits jhOk jhNext 0) (JH1.impl spare) JH1.new { H := Spec.JH.hash 32, size := 32, blockSize := 64 } := by
  refine refinesOn_permits_of_sim _ _ _ _ _ _ (fun d t m => JH1.Rep d m ∧ t = m.length ∧ t < 2 ^ 61)
    ⟨JH1.reset_rep _ (zeros_length 64), rfl, by decide⟩ ?_ ?_ ?_ ?_ ?_
  · rintro d t m p ⟨hr, rfl, _⟩ ⟨h1, h2⟩
    obtain ⟨d', e, hr'⟩ := JH1.write_rep d m p (spare p) hr (by omega)
    refine ⟨d', e, hr', ?_, h2⟩
    show m.length + p.length = _
    rw [List.length_append]
  · rintro d t m b ⟨hr, rfl, hm⟩ _
    refine ⟨d, ?_, hr, rfl, hm⟩
    show some (d, b ++ d.checkSum) = _
    rw [JH1.checkSum_eq d m hr hm]
  · rintro d t m ⟨hr, _, _⟩ _; exact ⟨JH1.reset_rep d hr.sl, rfl, by show 0 < _; decide⟩
  · rintro d t m ⟨hr, ht, hm⟩; exact ⟨rfl, fun _ => ⟨hr, ht, hm⟩⟩
  · rintro d t m ⟨hr, ht, hm⟩; exact ⟨rfl, fun _ => ⟨hr, ht, hm⟩⟩

/-- jh: two short writes whose slices have no spare capacity panic, for all contents. -/
theorem C38_jh_violated (p q : Bytes) (hp : 0 < p.length) (hpq : p.length + q.length < 64) :
    (JH1.impl (fun _ => [])).run JH1.new [.write p, .write q] = [.wrote p.length, .panicked] := by
  obtain ⟨d', e, hr⟩ := JH1.write_rep JH1.new [] p [] (JH1.reset_rep _ (zeros_length 64)) (Or.inl rfl)
  have e2 := JH1.write_panics d' p q [] hr (by rw [Nat.mod_eq_of_lt (by omega)]; exact hp) (by rw [Nat.mod_eq_of_lt (by omega)]; simpa using hpq)
  have e1 : (JH1.impl (fun _ => [])).write JH1.new p = some (d', p.length) := e
  have e3 : (JH1.impl (fun _ => [])).write d' q = none := e2
  simp only [HashImpl.run, e1, e3]

/-! Non-vacuity. -/
example : Permits jhOk jhNext 0 [.write (zeros 10), .sum [], .write (zeros 54), .write (zeros 1), .reset, .write (zeros 3)] := by
  simp [Permits, jhOk, jhNext, zeros_length]
example : ∃ spare : Bytes → Bytes, ∀ p, 64 ≤ (spare p).length := ⟨fun _ => zeros 64, fun _ => by rw [zeros_length]⟩
example : Fits (2 ^ 61) [.write [1, 2, 3], .sum [], .reset] := by
  intro k; match k with
  | 0 => decide
  | 1 => decide
  | 2 => decide
  | k + 3 => simp [msgAfter]

/-! Known answer test (a test, not a proof). -/
set_option maxRecDepth 100000 in
example : (JH2.new 32).checkSum = hex "46e64619c18bb0a92a5e87185a47eef83ca747b8fcc8e1412921357e326df434" := by decide +kernel

end Verif.Props
