import Verif.Lemmas.MD2
/-
C03: `md2.New` is MD2 (RFC 1319) under every history of calls.
-/
namespace Verif.Props

/-- The abstract MD2 object. -/
def md2Spec : HashSpec := { H := Spec.MD2.hash, size := 16, blockSize := 16 }

theorem md2_sim : Sim MD2.impl md2Spec (fun d m => d.Repr 16 MD2.block MD2.s0 m) := by
  refine BufDigest.sim (B := 16) (by omega) MD2.block MD2.s0 MD2.impl md2Spec
    ?_ ?_ ?_ (fun _ => rfl) (fun _ => rfl)
  · intro d p _ _; rfl
  · intro d m b h
    simp only [MD2.impl, MD2.checkSum_eq d m h, Option.map_some, md2Spec]
  · intro d _
    exact ⟨rfl, zeros_length 16, rfl, rfl⟩

theorem md2_init : MD2.new.Repr 16 MD2.block MD2.s0 [] := .init ⟨rfl, zeros_length 16, rfl, rfl⟩

/-- C03. Every history of calls on an `md2.New` object behaves like the abstract MD2 object
(in particular neither of the panics of `checkSum` is reachable). -/
theorem C03_md2_refines : Refines MD2.impl MD2.new md2Spec := md2_sim.refines md2_init

/-- One-shot form (`md2.Sum`, md2/md2.go). -/
theorem C03_md2_oneshot (m : Bytes) :
    MD2.checkSum (MD2.write MD2.new m) = some (Spec.MD2.hash m) :=
  MD2.checkSum_eq _ m (by
    have := md2_init.absorb (by omega) m
    rwa [List.nil_append] at this)

-- Test (RFC 1319 vector for "abc"), in two writes.
set_option maxRecDepth 100000 in
example : MD2.impl.run MD2.new [.write (ascii "ab"), .write (ascii "c"), .sum [7#8]] =
    [.wrote 2, .wrote 1, .bytes (7#8 :: hex "da853b0d3f88d99b30283a69e6ded6bb")] := by
  decide +kernel

end Verif.Props
