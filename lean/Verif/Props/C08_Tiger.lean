import Verif.Lemmas.Tiger
/-
C08: `tiger.New`, `New160`, `New128` (Tiger) and `New2`, `New2_160`, `New2_128` (Tiger2) under
every history of calls.
-/
namespace Verif.Props

/-- The abstract object of digest size `hs` and padding marker `mk`, over the S-boxes of the
code (`Tiger.boxes` reads tiger/sbox.go). -/
def tigerSpec (hs : Nat) (mk : Byte) : HashSpec :=
  { H := fun m => (Spec.Tiger.hash Tiger.boxes mk m).take hs, size := hs, blockSize := 64 }

theorem tiger_sim (hs ver : Nat) (hh : hs ≤ 24) : Sim (Tiger.impl hs ver) (tigerSpec hs (Tiger.marker ver))
    (fun d m => d.Repr 64 Tiger.compress Tiger.initH m) := by
  refine BufDigest.sim (B := 64) (by omega) Tiger.compress Tiger.initH _ _
    ?_ ?_ ?_ (fun _ => rfl) (fun _ => rfl)
  · intro d p _ _; rfl
  · intro d m b h
    simp only [Tiger.impl, Tiger.checkSum_eq hs ver hh d m h, tigerSpec]
  · intro d hx
    exact ⟨rfl, hx, rfl, rfl⟩

theorem tiger_init : Tiger.new.Repr 64 Tiger.compress Tiger.initH [] :=
  .init ⟨rfl, zeros_length 64, rfl, rfl⟩

/-- C08, `New` (24), `New160` (20), `New128` (16): Tiger, truncated. -/
theorem C08_tiger_refines (hs : Nat) (hh : hs = 16 ∨ hs = 20 ∨ hs = 24) :
    Refines (Tiger.impl hs 1) Tiger.new (tigerSpec hs 0x01#8) :=
  (tiger_sim hs 1 (by omega)).refines tiger_init

/-- C08, `New2`, `New2_160`, `New2_128`: Tiger2, truncated. -/
theorem C08_tiger2_refines (hs : Nat) (hh : hs = 16 ∨ hs = 20 ∨ hs = 24) :
    Refines (Tiger.impl hs 2) Tiger.new (tigerSpec hs 0x80#8) :=
  (tiger_sim hs 2 (by omega)).refines tiger_init

/-- The output has the advertised length, and the shorter variants are prefixes of Tiger/192. -/
theorem C08_tiger_size (mk : Byte) (m : Bytes) : (Spec.Tiger.hash Tiger.boxes mk m).length = 24 := by
  simp [Spec.Tiger.hash]

-- Tests (vectors of tiger_test.go), also pinning the S-boxes.
set_option maxRecDepth 100000 in
example : ((Tiger.impl 24 1).run Tiger.new [.write (ascii "ab"), .sum [], .write (ascii "c"), .sum [7#8]]).getLast? =
    some (.bytes (7#8 :: hex "2aab1484e8c158f2bfb8c5ff41b57a525129131c957b5f93")) := by decide +kernel
set_option maxRecDepth 100000 in
example : ((Tiger.impl 24 1).run Tiger.new [.write (ascii "ABCDEFGHIJKLMNOPQRSTUVWXYZabcdefghijklmnopqrstuvwxyz0123456789"), .sum []]).getLast? =
    some (.bytes (hex "8dcea680a17583ee502ba38a3c368651890ffbccdc49a8cc")) := by decide +kernel
set_option maxRecDepth 100000 in
example : ((Tiger.impl 24 2).run Tiger.new [.write (ascii ""), .sum []]).getLast? =
    some (.bytes (hex "4441be75f6018773c206c22745374b924aa8313fef919f41")) := by decide +kernel

end Verif.Props
