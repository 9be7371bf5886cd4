import Verif.Lemmas.HAS160
/-
C06: `has160.New` is HAS-160 under every history of calls.
-/
namespace Verif.Props

/-- The abstract HAS-160 object. -/
def has160Spec : HashSpec := { H := Spec.HAS160.hash, size := 20, blockSize := 64 }

theorem has160_sim : Sim HAS160.impl has160Spec (fun d m => d.Repr 64 HAS160.stepBlock HAS160.initH m) := by
  refine BufDigest.sim (B := 64) (by omega) HAS160.stepBlock HAS160.initH HAS160.impl has160Spec
    ?_ ?_ ?_ (fun _ => rfl) (fun _ => rfl)
  · intro d p _ _; rfl
  · intro d m b h
    simp only [HAS160.impl, HAS160.checkSum_eq d m h]; rfl
  · intro d _
    exact ⟨rfl, by simp [HAS160.impl, HAS160.reset], rfl, rfl⟩

/-- C06. Every history of calls on a `has160.New` object behaves like the abstract HAS-160 object. -/
theorem C06_has160_refines : Refines HAS160.impl HAS160.new has160Spec :=
  has160_sim.refines (.init ⟨rfl, by simp [HAS160.new, HAS160.reset], rfl, rfl⟩)

/-- One-shot form (`has160.Sum`, has160/has160.go:13-21). -/
theorem C06_has160_oneshot (m : Bytes) :
    HAS160.checkSum (HAS160.write HAS160.new m) = Spec.HAS160.hash m :=
  C06_has160_refines.oneshot (s' := HAS160.write HAS160.new m) rfl rfl

-- Tests (vectors of has160_test.go).
set_option maxRecDepth 100000 in
example : HAS160.impl.run HAS160.new [.write (ascii "a"), .sum [7#8], .reset, .write (ascii "ab"),
      .write (ascii "c"), .sum []] =
    [.wrote 1, .bytes (7#8 :: hex "4872bcbc4cd0f0a9dc7c2f7045e5b43b6c830db8"), .done, .wrote 2,
     .wrote 1, .bytes (hex "975e810488cf2a3d49838478124afce4b1c78804")] := by
  decide +kernel
set_option maxRecDepth 100000 in
example : Spec.HAS160.hash (ascii "ABCDEFGHIJKLMNOPQRSTUVWXYZabcdefghijklmnopqrstuvwxyz0123456789") =
    hex "cb5d7efbca2f02e0fb7167cabb123af5795764e5" := by
  rw [← C06_has160_oneshot]; decide +kernel

end Verif.Props
