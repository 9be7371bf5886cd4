import Verif.Model.Lyra2Sum
import Verif.Props.C108_Lyra2
import Verif.Props.C09_BLAKE256
import Verif.Props.C39_Skein
import Verif.Props.C37_Groestl
import Verif.Props.C48_CubeHash
import Verif.Props.C50_BMW
/-
C112, C113: `lyra2re.Sum` and `lyra2re2.Sum`.
-/
namespace Verif.Props
open Verif.Lyra2

/-- Lyra2RE: BLAKE-256, Keccak-256, Lyra2 with 8 rows and 8 columns, Skein-512-256, Grøstl-256. -/
def lyra2re (stride : Nat) (keccak : Bytes → Bytes) (m : Bytes) : Bytes :=
  let k := keccak (Spec.BLAKE.blake256 noSalt32 m)
  Spec.Groestl.hash 256 (Spec.Skein.skein 8 32 none [] (Spec.Lyra2.key stride 32 k k 1 8 8))

/-- CubeHash160+16/32+160-256 -/
def cube256 (m : Bytes) : Bytes := Spec.CubeHash.hash ⟨256, 32, 16, 160, 160⟩ m

/-- Lyra2REv2: BLAKE-256, Keccak-256, CubeHash-256, Lyra2 with 4 rows and 4 columns, Skein-512-256, CubeHash-256, BMW-256. -/
def lyra2rev2 (keccak : Bytes → Bytes) (m : Bytes) : Bytes :=
  let c := cube256 (keccak (Spec.BLAKE.blake256 noSalt32 m))
  Spec.BMW.bmw256 (cube256 (Spec.Skein.skein 8 32 none [] (Spec.Lyra2.key 8 32 c c 1 4 4)))

theorem writeSum_of_run {σ} {I : HashImpl σ} {d : σ} {S : HashSpec} {data : Bytes} (h : I.run d [.write data, .sum []] = S.run [] [.write data, .sum []]) :
    writeSum I d data = some (S.H data) := by
  unfold writeSum
  simp only [HashImpl.run, HashSpec.run, List.nil_append] at h
  cases hw : I.write d data with
  | none => rw [hw] at h; simp at h
  | some r =>
    rw [hw] at h
    simp only [List.cons.injEq] at h
    cases hs : I.sum r.1 [] with
    | none => rw [hs] at h; simp at h
    | some q =>
      rw [hs] at h
      simp only [List.cons.injEq, Out.bytes.injEq] at h
      show ((I.sum r.1 []).map (·.2)) = _
      rw [hs]
      exact congrArg some h.2.1

theorem skein_length (m : Bytes) : (Spec.Skein.skein 8 32 none [] m).length ≤ 32 := by
  unfold Spec.Skein.skein Spec.Skein.output
  rw [List.length_take]; omega

theorem groestl_foldl_length {n : Nat} (rc : Nat → Nat → Nat → Byte) (sh : List Nat) (l : List Nat) (hl : l ≠ []) (st : Bytes) :
    (l.foldl (fun st r => Spec.Groestl.round n (rc r) sh st) st).length = 8 * n := by
  rcases List.eq_nil_or_concat l with rfl | ⟨l', b, rfl⟩
  · exact absurd rfl hl
  · rw [List.concat_eq_append, List.foldl_append, List.foldl_cons, List.foldl_nil]
    unfold Spec.Groestl.round Spec.Groestl.mixBytes
    rw [List.length_map, List.length_range]

theorem groestl_P_length (st : Bytes) : (Spec.Groestl.P 8 st).length = 64 := groestl_foldl_length Spec.Groestl.rcP _ (List.range 10) (by decide) st
theorem groestl_Q_length (st : Bytes) : (Spec.Groestl.Q 8 st).length = 64 := groestl_foldl_length Spec.Groestl.rcQ _ (List.range 10) (by decide) st

theorem groestl_length (m : Bytes) : (Spec.Groestl.hash 256 m).length = 32 := by
  have key : ∀ (l : List Bytes) (h : Bytes), h.length = 64 → (l.foldl (Spec.Groestl.f 8) h).length = 64 := by
    intro l
    induction l with
    | nil => intro h hh; exact hh
    | cons a l ih =>
      intro h hh
      rw [List.foldl_cons]
      apply ih
      unfold Spec.Groestl.f Spec.Groestl.xor
      rw [List.length_zipWith, List.length_zipWith, groestl_P_length, groestl_Q_length, hh]; rfl
  unfold Spec.Groestl.hash
  dsimp only
  rw [List.length_drop, show Spec.Groestl.cols 256 = 8 from rfl]
  unfold Spec.Groestl.xor
  rw [List.length_zipWith, groestl_P_length, key _ _ (by rfl)]
  rfl

theorem cube_length (m : Bytes) : (cube256 m).length = 32 := by
  have key : ∀ (l : List Bytes) (s : List U32), s.length = 32 → (l.foldl (Spec.CubeHash.absorb ⟨256, 32, 16, 160, 160⟩) s).length = 32 := by
    intro l
    induction l with
    | nil => intro h hh; exact hh
    | cons a l ih =>
      intro h hh
      rw [List.foldl_cons]
      apply ih
      unfold Spec.CubeHash.absorb
      exact CubeHash.rounds_length _ _ (by unfold Spec.CubeHash.ofBytes; rw [List.length_map, List.length_range])
  have flat : ∀ w : List U32, (w.flatMap le32).length = 4 * w.length := by
    intro w
    induction w with
    | nil => rfl
    | cons a l ih => rw [List.flatMap_cons, List.length_append, ih, le32_length, List.length_cons]; omega
  unfold cube256 Spec.CubeHash.hash
  dsimp only
  rw [List.length_take]
  unfold Spec.CubeHash.toBytes
  rw [flat, CubeHash.rounds_length _ _ (by rw [List.length_set]; exact key _ _ (CubeHash.init_length _))]
  rfl

theorem groestlSum256_eq (m : Bytes) (h : m.length < 2 ^ 60) : groestlSum256 m = some (Spec.Groestl.hash 256 m) := by
  have hl := groestl_length m
  obtain ⟨d, hd, hr⟩ := C37_groestl_contract_partial 256 (by decide) (by decide) (by decide)
  have := writeSum_of_run (hr [.write m, .sum []] (by
    intro k
    match k with
    | 0 => simp [msgAfter]
    | 1 => simpa [msgAfter] using h
    | n + 2 => simpa [msgAfter] using h))
  unfold groestlSum256
  rw [show Groestl.new 256 = some d from hd]
  show (writeSum Groestl.impl d m >>= fun sum => _) = _
  rw [this]
  show (if (Spec.Groestl.hash 256 m).length < 32 then none else some (goCopy (zeros 32) 0 ((Spec.Groestl.hash 256 m).take 32))) = _
  rw [if_neg (by omega), List.take_of_length_le (by omega), goCopy_zero_all _ _ (by rw [hl]; rfl)]

theorem cube256_ok : CubeHash.Ok ⟨256, 32, 16, 160, 160⟩ := ⟨by decide, by decide, by decide, by decide, by decide⟩

theorem cubehash256_eq (m : Bytes) : cubehash256 m = some (cube256 m) := writeSum_of_run (C48_cubehash_contract_partial ⟨256, 32, 16, 160, 160⟩ cube256_ok [.write m, .sum []])

theorem blakeSum_eq (m : Bytes) : writeSum (BLAKE256.impl 256 BLAKE256.iv256) (BLAKE256.new BLAKE256.iv256) m = some (Spec.BLAKE.blake256 noSalt32 m) :=
  writeSum_of_run (C09_blake256_refines [.write m, .sum []])

theorem lyra2_key_length (stride : Nat) (pwd salt : Bytes) (T R C : Nat) : (Spec.Lyra2.key stride 32 pwd salt T R C).length ≤ 32 := by
  unfold Spec.Lyra2.key Spec.Lyra2.squeeze
  rw [List.length_take]; omega

theorem skeinSum_eq (m : Bytes) (h : m.length ≤ 32) : Skein.sumFunc Skein.iv256 32 m [] = Spec.Skein.skein 8 32 none [] m :=
  (C39_skein_oneshot m [] (by have : 32 < 2 ^ 64 := by decide
                              omega) (by decide)).2.2.1

attribute [local irreducible] Spec.Lyra2.key Spec.Skein.skein Spec.Groestl.hash Spec.BLAKE.blake256 cube256 v1 v2 Spec.BMW.bmw256

/-- C112: for every message, `lyra2re.Sum` returns Lyra2RE of the message without error or panic, for any Keccak with 32-byte digests; Lyra2 is the variant of
version 1 (`stride` 64, C109). -/
theorem C112_lyra2re_sum (keccak : Bytes → Bytes) (hk : ∀ m, (keccak m).length = 32) (m : Bytes) : sum1 keccak m = some (lyra2re 64 keccak m) := by
  unfold sum1 lyra2re
  dsimp only
  rw [blakeSum_eq, Option.bind_eq_bind, Option.bind_some]
  have hl := hk (Spec.BLAKE.blake256 noSalt32 m)
  generalize keccak (Spec.BLAKE.blake256 noSalt32 m) = k at hl
  have hv : v1 (zeros 32) k k 1 8 8 = some (Spec.Lyra2.key 64 32 k k 1 8 8) := by
    have := (C109_lyra2v1_partial (zeros 32) k k 1 8 8 (by decide) (by decide) (by decide) (by rw [hl]) (by rw [hl]) (by rw [hl]; decide) (by rw [hl]; decide)).1
    rwa [zeros_length] at this
  have hkl := lyra2_key_length 64 k k 1 8 8
  rw [hv, Option.bind_some]
  generalize Spec.Lyra2.key 64 32 k k 1 8 8 = y at hkl
  have hsl := skein_length y
  rw [skeinSum_eq _ hkl]
  generalize Spec.Skein.skein 8 32 none [] y = z at hsl
  exact groestlSum256_eq z (Nat.lt_of_le_of_lt hsl (by decide))

/-- C113: for every message, `lyra2re2.Sum` returns Lyra2REv2 of the message without error or panic, for any Keccak. -/
theorem C113_lyra2re2_sum (keccak : Bytes → Bytes) (m : Bytes) : sum2 keccak m = some (lyra2rev2 keccak m) := by
  unfold sum2 lyra2rev2
  dsimp only
  rw [blakeSum_eq, Option.bind_eq_bind, Option.bind_some]
  generalize keccak (Spec.BLAKE.blake256 noSalt32 m) = q
  rw [cubehash256_eq, Option.bind_some]
  have hl := cube_length q
  generalize cube256 q = k at hl
  have hv : v2 (zeros 32) k k 1 4 4 = some (Spec.Lyra2.key 8 32 k k 1 4 4) := by
    have := C108_lyra2_partial (zeros 32) k k 1 4 4 (by decide) (by decide) (by decide) (by rw [hl]) (by rw [hl]) (by rw [hl]; decide)
    rwa [zeros_length] at this
  have hkl := lyra2_key_length 8 k k 1 4 4
  rw [hv, Option.bind_some]
  generalize Spec.Lyra2.key 8 32 k k 1 4 4 = y at hkl
  rw [skeinSum_eq _ hkl, cubehash256_eq, Option.bind_some, (C50_bmw_oneshot _).2.1]

/-- Such a Keccak exists. -/
example : ∀ m : Bytes, ((fun _ => zeros 32) m : Bytes).length = 32 := fun _ => rfl

end Verif.Props
