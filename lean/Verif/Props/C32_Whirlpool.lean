import Verif.Lemmas.Whirlpool
import Verif.HistAuto
/-
C32: package whirlpool.
-/
namespace Verif.Props
open Verif.Whirlpool
open Spec.Whirlpool (Version mul coef)

/-- Every Write of the history takes fewer than 2^60 bytes (a Go slice cannot be longer; beyond that the bit count of one Write would not fit into 64 bits).
There is no bound on the total. -/
def ShortWrites (ops : List Op) : Prop := ∀ p, Op.write p ∈ ops → p.length < 2 ^ 60

namespace WhirlpoolTables
/-- Table j as it follows from the S-box and the diffusion matrix. -/
def expand (V : Version) (j : Nat) : List Nat :=
  V.sbox.map fun s => (List.range 8).foldl (fun a k => a * 256 + (mul (coef V j k) s).toNat) 0

theorem fold8 (b : Nat → Byte) (k : Nat) (hk : k < 8) (w : U64) (hw : w.toNat = (List.range 8).foldl (fun a k => a * 256 + (b k).toNat) 0) : byteOf w k = b k := by
  apply BitVec.eq_of_toNat_eq
  unfold byteOf
  rw [BitVec.extractLsb'_toNat, hw, Nat.shiftRight_eq_div_pow]
  rw [show List.range 8 = [0, 1, 2, 3, 4, 5, 6, 7] from rfl]
  simp only [List.foldl_cons, List.foldl_nil]
  have h0 := (b 0).isLt; have h1 := (b 1).isLt; have h2 := (b 2).isLt; have h3 := (b 3).isLt
  have h4 := (b 4).isLt; have h5 := (b 5).isLt; have h6 := (b 6).isLt; have h7 := (b 7).isLt
  have : k = 0 ∨ k = 1 ∨ k = 2 ∨ k = 3 ∨ k = 4 ∨ k = 5 ∨ k = 6 ∨ k = 7 := by omega
  rcases this with rfl | rfl | rfl | rfl | rfl | rfl | rfl | rfl <;> simp only [Nat.reduceMul, Nat.reduceSub, Nat.reducePow] at * <;> omega

theorem fits (V : Version) (T : Tables) (hs : V.sbox.length = 256) (h : ∀ j, j < 8 → (T.c.getD j []).map BitVec.toNat = expand V j)
    (hc : ∀ r, r < 11 → 1 ≤ r → ∀ j, j < 8 → byteOf (g T.rc r) j = at8 V.sbox (8 * (r - 1) + j)) : TablesFit V T where
  sub := by
    intro j x k hj hx hk
    apply fold8 (fun k => mul (coef V j k) (at8 V.sbox x)) k hk
    have e := h j hj
    unfold expand at e
    generalize T.c.getD j [] = t at e ⊢
    have hl : t.length = 256 := by
      have := congrArg List.length e; rw [List.length_map, List.length_map, hs] at this; exact this
    have e' := congrArg (fun l : List Nat => l[x]?) e
    rw [List.getElem?_map, List.getElem?_map, List.getElem?_eq_getElem (show x < t.length by omega), List.getElem?_eq_getElem (show x < V.sbox.length by omega)] at e'
    simp only [Option.map_some, Option.some.injEq] at e'
    have a1 : t.getD x 0 = t[x] := by rw [List.getD_eq_getElem?_getD, List.getElem?_eq_getElem (show x < t.length by omega)]; rfl
    have a2 : at8 V.sbox x = V.sbox[x] := by unfold at8; rw [List.getD_eq_getElem?_getD, List.getElem?_eq_getElem (show x < V.sbox.length by omega)]; rfl
    rw [a1, a2]
    exact e'
  con := fun r j h1 h2 hj => hc r (by omega) h1 j hj

theorem fits_final : TablesFit Spec.Whirlpool.final tables :=
  fits _ _ (by decide +kernel) (by decide +kernel) (by decide +kernel)
theorem fits_0 : TablesFit Spec.Whirlpool.version0 tables0 :=
  fits _ _ (by decide +kernel) (by decide +kernel) (by decide +kernel)
theorem fits_T : TablesFit Spec.Whirlpool.versionT tables1 :=
  fits _ _ (by decide +kernel) (by decide +kernel) (by decide +kernel)
end WhirlpoolTables

theorem whirlpool_contract (V : Version) (T : Tables) (h : TablesFit V T) :
    RefinesOn ShortWrites (impl T) reset { H := Spec.Whirlpool.hash V, size := 64, blockSize := 64 } := by
  have key := refinesOn_permits_of_sim (τ := Unit) (fun _ o => ∀ p, o = Op.write p → p.length < 2 ^ 60) (fun _ _ => ()) () (impl T) reset
    { H := Spec.Whirlpool.hash V, size := 64, blockSize := 64 } (fun d _ m => Inv T d m) Inv.init
    (fun d _ m p hi ho => ⟨_, rfl, write_inv d m p hi (ho p rfl)⟩)
    (fun d _ m b hi _ => ⟨d, by
      show some (d, b ++ d.checkSum T) = some (d, b ++ Spec.Whirlpool.hash V m)
      rw [checkSum_eq d m hi, foldl_bytes h _ (fun b hb => mem_fullBlocks_length 64 _ b hb) _ (by simp)]; rfl, hi⟩)
    (fun _ _ _ _ _ => Inv.init) (fun _ _ _ hi => ⟨rfl, fun _ => hi⟩) (fun _ _ _ hi => ⟨rfl, fun _ => hi⟩)
  intro ops hops
  apply key
  clear key
  induction ops with
  | nil => trivial
  | cons o ops ih => exact ⟨fun p e => hops p (by rw [e]; simp), ih (fun p hp => hops p (by simp [hp]))⟩

/-- whirlpool.New: Whirlpool, for every history. -/
theorem C32_whirlpool_contract : RefinesOn ShortWrites (impl tables) reset { H := Spec.Whirlpool.hash Spec.Whirlpool.final, size := 64, blockSize := 64 } :=
  whirlpool_contract _ _ WhirlpoolTables.fits_final
/-- whirlpool.New0: Whirlpool-0. -/
theorem C32_whirlpool0_contract : RefinesOn ShortWrites (impl tables0) reset { H := Spec.Whirlpool.hash Spec.Whirlpool.version0, size := 64, blockSize := 64 } :=
  whirlpool_contract _ _ WhirlpoolTables.fits_0
/-- whirlpool.New1: Whirlpool-T. -/
theorem C32_whirlpoolT_contract : RefinesOn ShortWrites (impl tables1) reset { H := Spec.Whirlpool.hash Spec.Whirlpool.versionT, size := 64, blockSize := 64 } :=
  whirlpool_contract _ _ WhirlpoolTables.fits_T

/-! Non-vacuity: a history with writes, sums and a reset. -/
example : ShortWrites [.write [1, 2, 3], .sum [], .write (zeros 100), .sum [9], .reset, .sum []] := by
  intro p hp
  simp only [List.mem_cons, List.not_mem_nil, or_false, reduceCtorEq, false_or, Op.write.injEq] at hp
  rcases hp with rfl | rfl
  · decide
  · rw [zeros_length]; decide

end Verif.Props
