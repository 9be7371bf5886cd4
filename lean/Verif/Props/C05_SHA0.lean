import Verif.Lemmas.SHA0
/-
C05: `sha0.New` is SHA-0 under every history of calls.
-/
namespace Verif.Props

/-- The abstract SHA-0 object. -/
def sha0Spec : HashSpec := { H := Spec.SHA0.hash, size := 20, blockSize := 64 }

theorem sha0_sim : Sim SHA0.impl sha0Spec (fun d m => d.Repr 64 SHA0.processBlock SHA0.initVal m) := by
  refine BufDigest.sim (B := 64) (by omega) SHA0.processBlock SHA0.initVal SHA0.impl sha0Spec
    ?_ ?_ ?_ (fun _ => rfl) (fun _ => rfl)
  · intro d p _ _; rfl
  · intro d m b h
    simp only [SHA0.impl, SHA0.checkSum_eq d m h]; rfl
  · intro d _
    exact ⟨rfl, by simp [SHA0.impl, SHA0.reset], rfl, rfl⟩

/-- C05. Every history of calls on a `sha0.New` object behaves like the abstract SHA-0 object. -/
theorem C05_sha0_refines : Refines SHA0.impl SHA0.new sha0Spec :=
  sha0_sim.refines (.init ⟨rfl, by simp [SHA0.new, SHA0.reset], rfl, rfl⟩)

/-- One-shot form (`sha0.Sum`, sha0/sha0.go:13-20). -/
theorem C05_sha0_oneshot (m : Bytes) : SHA0.checkSum (SHA0.write SHA0.new m) = Spec.SHA0.hash m :=
  C05_sha0_refines.oneshot (s' := SHA0.write SHA0.new m) rfl rfl

-- Tests (vectors of sha0_test.go).
set_option maxRecDepth 100000 in
example : SHA0.impl.run SHA0.new [.write (ascii "a"), .sum [7#8], .reset, .write (ascii "ab"),
      .write (ascii "c"), .sum []] =
    [.wrote 1, .bytes (7#8 :: hex "37f297772fae4cb1ba39b6cf9cf0381180bd62f2"), .done, .wrote 2,
     .wrote 1, .bytes (hex "0164b8a914cd2a5e74c4f7ff082c4d97f1edf880")] := by
  decide +kernel
set_option maxRecDepth 100000 in
example : Spec.SHA0.hash (ascii "abcdbcdecdefdefgefghfghighijhijkijkljklmklmnlmnomnopnopq") =
    hex "d2516ee1acfa5baf33dfc1c471e438449ef134c8" := by
  rw [← C05_sha0_oneshot]; decide +kernel

end Verif.Props
