import Verif.Lemmas.ShabalObj
import Verif.LoopBuf
/-
C50, package shabal.
-/
namespace Verif.Props
open Verif.Shabal

namespace ShabalIV
set_option maxRecDepth 100000
theorem words1 : ∀ n, n < 17 → ∀ i, i < 16 → getLE32 (ivBuf (zeros 64) (n * 32)) (0 + 4 * i) = BitVec.ofNat 32 (32 * n + i) := by decide +kernel
theorem words2 : ∀ n, n < 17 → ∀ i, i < 16 → getLE32 (ivBuf (ivBuf (zeros 64) (n * 32)) (n * 32 + 16)) (0 + 4 * i) = BitVec.ofNat 32 (32 * n + 16 + i) := by decide +kernel
theorem len1 : ∀ n, n < 17 → (ivBuf (zeros 64) (n * 32)).length = 64 ∧ (ivBuf (ivBuf (zeros 64) (n * 32)) (n * 32 + 16)).length = 64 := by decide +kernel

theorem getIV_eq (n : Nat) (h : n < 17) : toSpec (getIV n) = Spec.Shabal.iv (32 * n) ∧ Wf (getIV n) := by
  unfold getIV
  dsimp only
  rw [core_one _ _ (len1 n h).1, core_one _ _ (len1 n h).2]
  obtain ⟨a1, a2, a3⟩ := coreBlock_eq (ivBuf (zeros 64) (n * 32)) 0 { A := List.replicate 12 0, B := List.replicate 16 0, C := List.replicate 16 0, W := -1 }
    ⟨List.length_replicate, List.length_replicate, List.length_replicate⟩
  rw [block_congr _ _ _ (words1 n h)] at a1
  unfold f
  generalize coreBlock (ivBuf (zeros 64) (n * 32)) 0 _ = c at *
  obtain ⟨b1, b2, b3⟩ := coreBlock_eq (ivBuf (ivBuf (zeros 64) (n * 32)) (n * 32 + 16)) 0 c a3
  rw [block_congr _ _ _ (words2 n h), a1, a2] at b1
  exact ⟨b1, b3⟩

theorem iv192_eq : toSpec (unpack iv192) = Spec.Shabal.iv (32 * 6) := by
  rw [show toSpec (unpack iv192) = ⟨(unpack iv192).A, (unpack iv192).B, (unpack iv192).C⟩ from rfl, Spec.Shabal.State.mk.injEq]; decide +kernel
theorem iv224_eq : toSpec (unpack iv224) = Spec.Shabal.iv (32 * 7) := by
  rw [show toSpec (unpack iv224) = ⟨(unpack iv224).A, (unpack iv224).B, (unpack iv224).C⟩ from rfl, Spec.Shabal.State.mk.injEq]; decide +kernel
theorem iv256_eq : toSpec (unpack iv256) = Spec.Shabal.iv (32 * 8) := by
  rw [show toSpec (unpack iv256) = ⟨(unpack iv256).A, (unpack iv256).B, (unpack iv256).C⟩ from rfl, Spec.Shabal.State.mk.injEq]; decide +kernel
theorem iv384_eq : toSpec (unpack iv384) = Spec.Shabal.iv (32 * 12) := by
  rw [show toSpec (unpack iv384) = ⟨(unpack iv384).A, (unpack iv384).B, (unpack iv384).C⟩ from rfl, Spec.Shabal.State.mk.injEq]; decide +kernel
theorem iv512_eq : toSpec (unpack iv512) = Spec.Shabal.iv (32 * 16) := by
  rw [show toSpec (unpack iv512) = ⟨(unpack iv512).A, (unpack iv512).B, (unpack iv512).C⟩ from rfl, Spec.Shabal.State.mk.injEq]; decide +kernel

theorem reset_eq (n : Nat) (h : n < 17) : toSpec (Shabal.reset n).c = Spec.Shabal.iv (32 * n) ∧ Wf (Shabal.reset n).c ∧ (Shabal.reset n).c.W = 1 := by
  unfold Shabal.reset
  dsimp only
  by_cases h6 : n = 6
  · subst h6; rw [if_pos rfl]; exact ⟨iv192_eq, ⟨rfl, rfl, rfl⟩, rfl⟩
  rw [if_neg h6]
  by_cases h7 : n = 7
  · subst h7; rw [if_pos rfl]; exact ⟨iv224_eq, ⟨rfl, rfl, rfl⟩, rfl⟩
  rw [if_neg h7]
  by_cases h8 : n = 8
  · subst h8; rw [if_pos rfl]; exact ⟨iv256_eq, ⟨rfl, rfl, rfl⟩, rfl⟩
  rw [if_neg h8]
  by_cases h12 : n = 12
  · subst h12; rw [if_pos rfl]; exact ⟨iv384_eq, ⟨rfl, rfl, rfl⟩, rfl⟩
  rw [if_neg h12]
  by_cases h16 : n = 16
  · subst h16; rw [if_pos rfl]; exact ⟨iv512_eq, ⟨rfl, rfl, rfl⟩, rfl⟩
  rw [if_neg h16]
  obtain ⟨a, b⟩ := getIV_eq n h
  generalize getIV n = c at *
  exact ⟨a, ⟨b.a, b.b, b.c⟩, rfl⟩
end ShabalIV

/-- shabal.New succeeds exactly for the output sizes 32, 64, … , 512 bits. -/
theorem C50_shabal_new (size : Int) : (newDigest size).isSome ↔ ∃ n : Nat, 1 ≤ n ∧ n ≤ 16 ∧ size = 32 * n := by
  unfold newDigest
  by_cases h : size < 32 ∨ size > 512 ∨ size % 32 ≠ 0
  · rw [if_pos h]
    constructor
    · intro c; exact absurd c (by simp)
    · rintro ⟨n, h1, h2, h3⟩; omega
  · rw [if_neg h]
    exact ⟨fun _ => ⟨(size / 32).toNat, by omega, by omega, by omega⟩, fun _ => rfl⟩

/-- The digest of shabal.New behaves, for every history of calls, like Shabal with that output size of the bytes written since the last Reset. -/
theorem C50_shabal (n : Nat) (h1 : 1 ≤ n) (h2 : n ≤ 16) : ∃ d, newDigest (32 * n) = some d ∧
    Refines Shabal.impl d { H := Spec.Shabal.hash (32 * n), size := 4 * n, blockSize := 64 } := by
  refine ⟨Shabal.reset n, ?_, ?_⟩
  · unfold newDigest
    rw [if_neg (by omega)]
    congr 2
    omega
  obtain ⟨i1, i2, i3⟩ := ShabalIV.reset_eq n (by omega)
  have hr := Shabal.reset_rep n
  have hre : ∀ k, k = n → Shabal.Rep n (Shabal.reset n).c (Shabal.reset k) [] := fun k hk => by rw [hk]; exact hr
  generalize (Shabal.reset n).c = s₀ at i1 i2 i3 hr hre
  exact refines_of_sim _ _ _ (Shabal.Rep n s₀) hr
    (fun d m p h => ⟨_, rfl, Shabal.write_rep n s₀ d m p h⟩)
    (fun d m b h => ⟨d, congrArg (fun x => some (d, b ++ x)) (Shabal.checkSum_eq n h2 s₀ i2 i3 i1 d m h), h⟩)
    (fun d m h => hre d.outSizeW32 h.size)
    (fun d m h => by show 4 * d.outSizeW32 = _; rw [h.size]) (fun _ _ _ => rfl)

/-- For instance, a message cut in two. -/
example (n : Nat) (h1 : 1 ≤ n) (h2 : n ≤ 16) (a b : Bytes) : ∃ d, newDigest (32 * n) = some d ∧
    Shabal.impl.run d [.write a, .sum [], .write b, .sum []] =
    [.wrote a.length, .bytes (Spec.Shabal.hash (32 * n) a), .wrote b.length, .bytes (Spec.Shabal.hash (32 * n) (a ++ b))] := by
  obtain ⟨d, h, hr⟩ := C50_shabal n h1 h2
  exact ⟨d, h, hr.cut a b⟩

/-! Known answer test of shabal_test.go (a test, not a proof). -/
set_option maxRecDepth 100000 in
example : Spec.Shabal.hash 224 [0xcc] = [0x63, 0xd1, 0x74, 0x3b, 0x18, 0x31, 0x46, 0xac, 0x2a, 0x75, 0x41, 0x6c, 0x9a, 0x0d, 0x88, 0xc6,
  0x6f, 0x85, 0xa4, 0x22, 0xa4, 0x3e, 0x31, 0x71, 0xef, 0x9c, 0xc9, 0x23] := by decide +kernel

end Verif.Props
