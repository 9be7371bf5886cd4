import Verif.Model.OneShot
import Verif.Lemmas.DigestLen
import Verif.Props.C05_SHA0
import Verif.Props.C07_RIPEMD
import Verif.Props.C28_K12
import Verif.Props.C29_Esch
import Verif.Props.C37_Groestl
import Verif.Props.C48_CubeHash
import Verif.Props.C49_Belt
import Verif.Props.C50_Panama
import Verif.Props.C50_RadioGatun
import Verif.Props.C50_Shabal
import Verif.Props.C55_Haval
import Verif.Props.C56_FSB
/-
C126: the one-shot functions return the digest of their argument.  (The statements for single functions are generated from a table.)
-/
namespace Verif.Props
open Verif.OneShot

theorem calls_of {σ} {I : HashImpl σ} {S : HashSpec} {c : Option σ} {d : σ} {m : Bytes} {H : Bytes → Bytes} (hc : c = some d)
    (h : I.run d [.write m, .sum []] = S.run [] [.write m, .sum []]) (hH : S.H = H) : calls I c m = some (H m) := by
  subst hc
  simp only [HashImpl.run, HashSpec.run] at h
  unfold calls
  simp only [Option.bind_eq_bind, Option.bind_some]
  cases e : I.write d m with
  | none => rw [e] at h; simp at h
  | some x =>
    obtain ⟨s', n⟩ := x
    rw [e] at h
    simp only [List.cons.injEq] at h
    obtain ⟨-, h⟩ := h
    simp only [Option.bind_some]
    cases e2 : I.sum s' [] with
    | none => rw [e2] at h; simp at h
    | some y =>
      obtain ⟨s2, r⟩ := y
      rw [e2] at h
      simp only [List.cons.injEq, Out.bytes.injEq, List.nil_append, and_true] at h
      simp only [Option.bind_some, h, hH]

theorem goCopy_exact (n : Nat) (r : Bytes) (h : r.length = n) : goCopy (zeros n) 0 r = r := by
  subst h
  simp [goCopy]

theorem copy_of {σ} {I : HashImpl σ} {S : HashSpec} {c : Option σ} {d : σ} {m : Bytes} {H : Bytes → Bytes} {n : Nat} (hc : c = some d)
    (h : I.run d [.write m, .sum []] = S.run [] [.write m, .sum []]) (hH : S.H = H) (hl : (H m).length = n) : sumCopy I n c m = some (H m) := by
  unfold sumCopy
  rw [calls_of hc h hH, Option.map_some, goCopy_exact n _ hl]

theorem slice_of {σ} {I : HashImpl σ} {S : HashSpec} {c : Option σ} {d : σ} {m : Bytes} {H : Bytes → Bytes} {n : Nat} (hc : c = some d)
    (h : I.run d [.write m, .sum []] = S.run [] [.write m, .sum []]) (hH : S.H = H) (hl : (H m).length = n) : sumSlice I n c m = some (H m) := by
  unfold sumSlice
  rw [calls_of hc h hH, Option.bind_some, if_pos (by omega), List.take_of_length_le (by omega), goCopy_exact n _ hl]

theorem short_one {m b : Bytes} (h : m.length < 2 ^ 60) : ShortWrites [.write m, .sum b] := by
  have := short_writes (ps := [m]) (b := b) (by simpa using h)
  exact this

theorem shabal_one (n : Nat) (h1 : 1 ≤ n) (h2 : n ≤ 16) (N : Nat) (k : Int) (s : Nat) (hN : N = 32 * n) (hk : k = 32 * (n : Int)) (hs : s = 4 * n) (m : Bytes) :
    sumCopy Shabal.impl s (Shabal.newDigest k) m = some (Spec.Shabal.hash N m) := by
  subst hN hk hs
  obtain ⟨d, hd, h⟩ := C50_shabal n h1 h2
  exact copy_of (H := Spec.Shabal.hash (32 * n)) hd (h [.write m, .sum []]) rfl (DigestLen.shabal n h2 m)

theorem C126_md2Sum (m : Bytes) : md2Sum m = some (Spec.MD2.hash m) := by
  unfold md2Sum
  exact copy_of (H := Spec.MD2.hash) rfl (C03_md2_refines [.write m, .sum []]) (by rw [md2Spec]) (DigestLen.md2 m)

theorem C126_sm3Sum (m : Bytes) : sm3Sum m = some (Spec.SM3.hash m) := by
  unfold sm3Sum
  exact copy_of (H := Spec.SM3.hash) rfl (C01_sm3_refines [.write m, .sum []]) (by rfl) (DigestLen.sm3 m)

theorem C126_sha0Sum (m : Bytes) : sha0Sum m = some (Spec.SHA0.hash m) := by
  unfold sha0Sum
  exact copy_of (H := Spec.SHA0.hash) rfl (C05_sha0_refines [.write m, .sum []]) (by rfl) (DigestLen.sha0 m)

theorem C126_has160Sum (m : Bytes) : has160Sum m = some (Spec.HAS160.hash m) := by
  unfold has160Sum
  exact copy_of (H := Spec.HAS160.hash) rfl (C06_has160_refines [.write m, .sum []]) (by rfl) (DigestLen.has160 m)

theorem C126_ripemdSum128 (m : Bytes) : ripemdSum128 m = some (Spec.RIPEMD.hash128 m) := by
  unfold ripemdSum128
  exact copy_of (H := Spec.RIPEMD.hash128) rfl (C07_ripemd128_refines [.write m, .sum []]) (by rfl) (DigestLen.ripemd128 m)

theorem C126_ripemdSum160 (m : Bytes) : ripemdSum160 m = some (Spec.RIPEMD.hash160 m) := by
  unfold ripemdSum160
  exact copy_of (H := Spec.RIPEMD.hash160) rfl (C07_ripemd160_refines [.write m, .sum []]) (by rfl) (DigestLen.ripemd160 m)

theorem C126_ripemdSum256 (m : Bytes) : ripemdSum256 m = some (Spec.RIPEMD.hash256 m) := by
  unfold ripemdSum256
  exact copy_of (H := Spec.RIPEMD.hash256) rfl (C07_ripemd256_refines [.write m, .sum []]) (by rfl) (DigestLen.ripemd256 m)

theorem C126_ripemdSum320 (m : Bytes) : ripemdSum320 m = some (Spec.RIPEMD.hash320 m) := by
  unfold ripemdSum320
  exact copy_of (H := Spec.RIPEMD.hash320) rfl (C07_ripemd320_refines [.write m, .sum []]) (by rfl) (DigestLen.ripemd320 m)

theorem C126_panamaSum (m : Bytes) : panamaSum m = some (Spec.Panama.hash m) := by
  unfold panamaSum
  exact copy_of (H := Spec.Panama.hash) rfl (C50_panama [.write m, .sum []]) (by rfl) (DigestLen.panama m)

theorem C126_radioGatunSum32 (m : Bytes) : radioGatunSum32 m = some ((Spec.RadioGatun.hash Spec.RadioGatun.rg32) m) := by
  unfold radioGatunSum32
  exact copy_of (H := (Spec.RadioGatun.hash Spec.RadioGatun.rg32)) rfl (C50_radio_gatun32 [.write m, .sum []]) (by rfl) (DigestLen.radioGatun32 m)

theorem C126_radioGatunSum64 (m : Bytes) : radioGatunSum64 m = some ((Spec.RadioGatun.hash Spec.RadioGatun.rg64) m) := by
  unfold radioGatunSum64
  exact copy_of (H := (Spec.RadioGatun.hash Spec.RadioGatun.rg64)) rfl (C50_radio_gatun64 [.write m, .sum []]) (by rfl) (DigestLen.radioGatun64 m)

theorem C126_beltSum (m : Bytes) : beltSum m = some (Spec.Belt.hash m) := by
  unfold beltSum
  exact slice_of (H := Spec.Belt.hash) rfl (C49_belt_contract [.write m, .sum []]) (by rfl) (DigestLen.belt m)

theorem C126_blake256Sum (m : Bytes) : blake256Sum m = some ((Spec.BLAKE.blake256 [0, 0, 0, 0]) m) := by
  unfold blake256Sum
  exact copy_of (H := (Spec.BLAKE.blake256 [0, 0, 0, 0])) rfl (C09_blake256_refines [.write m, .sum []]) (by rfl) ((DigestLen.blake256 _) m)

theorem C126_blake256Sum224 (m : Bytes) : blake256Sum224 m = some ((Spec.BLAKE.blake224 [0, 0, 0, 0]) m) := by
  unfold blake256Sum224
  exact copy_of (H := (Spec.BLAKE.blake224 [0, 0, 0, 0])) rfl (C09_blake224_refines [.write m, .sum []]) (by rfl) ((DigestLen.blake224 _) m)

theorem C126_blake512Sum (m : Bytes) : blake512Sum m = some ((Spec.BLAKE.blake512 [0, 0, 0, 0]) m) := by
  unfold blake512Sum
  exact copy_of (H := (Spec.BLAKE.blake512 [0, 0, 0, 0])) rfl (C10_blake512_refines [.write m, .sum []]) (by rfl) ((DigestLen.blake512 _) m)

theorem C126_blake512Sum384 (m : Bytes) : blake512Sum384 m = some ((Spec.BLAKE.blake384 [0, 0, 0, 0]) m) := by
  unfold blake512Sum384
  exact copy_of (H := (Spec.BLAKE.blake384 [0, 0, 0, 0])) rfl (C10_blake384_refines [.write m, .sum []]) (by rfl) ((DigestLen.blake384 _) m)

theorem C126_shabalSum192 (m : Bytes) : shabalSum192 m = some ((Spec.Shabal.hash 192) m) := by
  unfold shabalSum192
  exact shabal_one 6 (by decide) (by decide) 192 192 24 rfl rfl rfl m

theorem C126_shabalSum224 (m : Bytes) : shabalSum224 m = some ((Spec.Shabal.hash 224) m) := by
  unfold shabalSum224
  exact shabal_one 7 (by decide) (by decide) 224 224 28 rfl rfl rfl m

theorem C126_shabalSum256 (m : Bytes) : shabalSum256 m = some ((Spec.Shabal.hash 256) m) := by
  unfold shabalSum256
  exact shabal_one 8 (by decide) (by decide) 256 256 32 rfl rfl rfl m

theorem C126_shabalSum384 (m : Bytes) : shabalSum384 m = some ((Spec.Shabal.hash 384) m) := by
  unfold shabalSum384
  exact shabal_one 12 (by decide) (by decide) 384 384 48 rfl rfl rfl m

theorem C126_shabalSum512 (m : Bytes) : shabalSum512 m = some ((Spec.Shabal.hash 512) m) := by
  unfold shabalSum512
  exact shabal_one 16 (by decide) (by decide) 512 512 64 rfl rfl rfl m

theorem C126_echoSum224 (m : Bytes) : echoSum224 m = some ((Spec.Echo.hash 28 (zeros 16)) m) := by
  unfold echoSum224
  obtain ⟨d, hd, h⟩ := C50_echo 28 (by decide) (by decide) [] (Or.inl rfl)
  have h := h [.write m, .sum []]
  exact slice_of (H := (Spec.Echo.hash 28 (zeros 16))) hd h rfl ((echo_hash_length 28 (by decide) (by decide)) m)

theorem C126_echoSum256 (m : Bytes) : echoSum256 m = some ((Spec.Echo.hash 32 (zeros 16)) m) := by
  unfold echoSum256
  obtain ⟨d, hd, h⟩ := C50_echo 32 (by decide) (by decide) [] (Or.inl rfl)
  have h := h [.write m, .sum []]
  exact slice_of (H := (Spec.Echo.hash 32 (zeros 16))) hd h rfl ((echo_hash_length 32 (by decide) (by decide)) m)

theorem C126_echoSum384 (m : Bytes) : echoSum384 m = some ((Spec.Echo.hash 48 (zeros 16)) m) := by
  unfold echoSum384
  obtain ⟨d, hd, h⟩ := C50_echo 48 (by decide) (by decide) [] (Or.inl rfl)
  have h := h [.write m, .sum []]
  exact slice_of (H := (Spec.Echo.hash 48 (zeros 16))) hd h rfl ((echo_hash_length 48 (by decide) (by decide)) m)

theorem C126_echoSum512 (m : Bytes) : echoSum512 m = some ((Spec.Echo.hash 64 (zeros 16)) m) := by
  unfold echoSum512
  obtain ⟨d, hd, h⟩ := C50_echo 64 (by decide) (by decide) [] (Or.inl rfl)
  have h := h [.write m, .sum []]
  exact slice_of (H := (Spec.Echo.hash 64 (zeros 16))) hd h rfl ((echo_hash_length 64 (by decide) (by decide)) m)

theorem C126_groestlSum224 (m : Bytes) (hm : m.length < 2 ^ 60) : groestlSum224 m = some ((Spec.Groestl.hash 224) m) := by
  unfold groestlSum224
  obtain ⟨d, hd, h⟩ := C37_groestl_contract_partial 224 (by decide) (by decide) (by decide)
  have h := h [.write m, .sum []] (fits_one hm)
  exact slice_of (H := (Spec.Groestl.hash 224)) hd h rfl ((DigestLen.groestl 224 (by decide)) m)

theorem C126_groestlSum256 (m : Bytes) (hm : m.length < 2 ^ 60) : groestlSum256 m = some ((Spec.Groestl.hash 256) m) := by
  unfold groestlSum256
  obtain ⟨d, hd, h⟩ := C37_groestl_contract_partial 256 (by decide) (by decide) (by decide)
  have h := h [.write m, .sum []] (fits_one hm)
  exact slice_of (H := (Spec.Groestl.hash 256)) hd h rfl ((DigestLen.groestl 256 (by decide)) m)

theorem C126_groestlSum384 (m : Bytes) (hm : m.length < 2 ^ 60) : groestlSum384 m = some ((Spec.Groestl.hash 384) m) := by
  unfold groestlSum384
  obtain ⟨d, hd, h⟩ := C37_groestl_contract_partial 384 (by decide) (by decide) (by decide)
  have h := h [.write m, .sum []] (fits_one hm)
  exact slice_of (H := (Spec.Groestl.hash 384)) hd h rfl ((DigestLen.groestl 384 (by decide)) m)

theorem C126_groestlSum512 (m : Bytes) (hm : m.length < 2 ^ 60) : groestlSum512 m = some ((Spec.Groestl.hash 512) m) := by
  unfold groestlSum512
  obtain ⟨d, hd, h⟩ := C37_groestl_contract_partial 512 (by decide) (by decide) (by decide)
  have h := h [.write m, .sum []] (fits_one hm)
  exact slice_of (H := (Spec.Groestl.hash 512)) hd h rfl ((DigestLen.groestl 512 (by decide)) m)

theorem C126_havalSum128_3 (m : Bytes) : havalSum128_3 m = some ((Spec.Haval.hash 3 128) m) := by
  unfold havalSum128_3
  obtain ⟨d, hd, h⟩ := C55_haval_contract 3 128 (Or.inl rfl) (Or.inl rfl)
  have h := h [.write m, .sum []]
  exact copy_of (H := (Spec.Haval.hash 3 128)) hd h rfl ((DigestLen.haval 3 128 (Or.inl rfl)) m)

theorem C126_havalSum128_4 (m : Bytes) : havalSum128_4 m = some ((Spec.Haval.hash 4 128) m) := by
  unfold havalSum128_4
  obtain ⟨d, hd, h⟩ := C55_haval_contract 4 128 (Or.inr (Or.inl rfl)) (Or.inl rfl)
  have h := h [.write m, .sum []]
  exact copy_of (H := (Spec.Haval.hash 4 128)) hd h rfl ((DigestLen.haval 4 128 (Or.inl rfl)) m)

theorem C126_havalSum128_5 (m : Bytes) : havalSum128_5 m = some ((Spec.Haval.hash 5 128) m) := by
  unfold havalSum128_5
  obtain ⟨d, hd, h⟩ := C55_haval_contract 5 128 (Or.inr (Or.inr rfl)) (Or.inl rfl)
  have h := h [.write m, .sum []]
  exact copy_of (H := (Spec.Haval.hash 5 128)) hd h rfl ((DigestLen.haval 5 128 (Or.inl rfl)) m)

theorem C126_havalSum160_3 (m : Bytes) : havalSum160_3 m = some ((Spec.Haval.hash 3 160) m) := by
  unfold havalSum160_3
  obtain ⟨d, hd, h⟩ := C55_haval_contract 3 160 (Or.inl rfl) (Or.inr (Or.inl rfl))
  have h := h [.write m, .sum []]
  exact copy_of (H := (Spec.Haval.hash 3 160)) hd h rfl ((DigestLen.haval 3 160 (Or.inr (Or.inl rfl))) m)

theorem C126_havalSum160_4 (m : Bytes) : havalSum160_4 m = some ((Spec.Haval.hash 4 160) m) := by
  unfold havalSum160_4
  obtain ⟨d, hd, h⟩ := C55_haval_contract 4 160 (Or.inr (Or.inl rfl)) (Or.inr (Or.inl rfl))
  have h := h [.write m, .sum []]
  exact copy_of (H := (Spec.Haval.hash 4 160)) hd h rfl ((DigestLen.haval 4 160 (Or.inr (Or.inl rfl))) m)

theorem C126_havalSum160_5 (m : Bytes) : havalSum160_5 m = some ((Spec.Haval.hash 5 160) m) := by
  unfold havalSum160_5
  obtain ⟨d, hd, h⟩ := C55_haval_contract 5 160 (Or.inr (Or.inr rfl)) (Or.inr (Or.inl rfl))
  have h := h [.write m, .sum []]
  exact copy_of (H := (Spec.Haval.hash 5 160)) hd h rfl ((DigestLen.haval 5 160 (Or.inr (Or.inl rfl))) m)

theorem C126_havalSum192_3 (m : Bytes) : havalSum192_3 m = some ((Spec.Haval.hash 3 192) m) := by
  unfold havalSum192_3
  obtain ⟨d, hd, h⟩ := C55_haval_contract 3 192 (Or.inl rfl) (Or.inr (Or.inr (Or.inl rfl)))
  have h := h [.write m, .sum []]
  exact copy_of (H := (Spec.Haval.hash 3 192)) hd h rfl ((DigestLen.haval 3 192 (Or.inr (Or.inr (Or.inl rfl)))) m)

theorem C126_havalSum192_4 (m : Bytes) : havalSum192_4 m = some ((Spec.Haval.hash 4 192) m) := by
  unfold havalSum192_4
  obtain ⟨d, hd, h⟩ := C55_haval_contract 4 192 (Or.inr (Or.inl rfl)) (Or.inr (Or.inr (Or.inl rfl)))
  have h := h [.write m, .sum []]
  exact copy_of (H := (Spec.Haval.hash 4 192)) hd h rfl ((DigestLen.haval 4 192 (Or.inr (Or.inr (Or.inl rfl)))) m)

theorem C126_havalSum192_5 (m : Bytes) : havalSum192_5 m = some ((Spec.Haval.hash 5 192) m) := by
  unfold havalSum192_5
  obtain ⟨d, hd, h⟩ := C55_haval_contract 5 192 (Or.inr (Or.inr rfl)) (Or.inr (Or.inr (Or.inl rfl)))
  have h := h [.write m, .sum []]
  exact copy_of (H := (Spec.Haval.hash 5 192)) hd h rfl ((DigestLen.haval 5 192 (Or.inr (Or.inr (Or.inl rfl)))) m)

theorem C126_havalSum224_3 (m : Bytes) : havalSum224_3 m = some ((Spec.Haval.hash 3 224) m) := by
  unfold havalSum224_3
  obtain ⟨d, hd, h⟩ := C55_haval_contract 3 224 (Or.inl rfl) (Or.inr (Or.inr (Or.inr (Or.inl rfl))))
  have h := h [.write m, .sum []]
  exact copy_of (H := (Spec.Haval.hash 3 224)) hd h rfl ((DigestLen.haval 3 224 (Or.inr (Or.inr (Or.inr (Or.inl rfl))))) m)

theorem C126_havalSum224_4 (m : Bytes) : havalSum224_4 m = some ((Spec.Haval.hash 4 224) m) := by
  unfold havalSum224_4
  obtain ⟨d, hd, h⟩ := C55_haval_contract 4 224 (Or.inr (Or.inl rfl)) (Or.inr (Or.inr (Or.inr (Or.inl rfl))))
  have h := h [.write m, .sum []]
  exact copy_of (H := (Spec.Haval.hash 4 224)) hd h rfl ((DigestLen.haval 4 224 (Or.inr (Or.inr (Or.inr (Or.inl rfl))))) m)

theorem C126_havalSum224_5 (m : Bytes) : havalSum224_5 m = some ((Spec.Haval.hash 5 224) m) := by
  unfold havalSum224_5
  obtain ⟨d, hd, h⟩ := C55_haval_contract 5 224 (Or.inr (Or.inr rfl)) (Or.inr (Or.inr (Or.inr (Or.inl rfl))))
  have h := h [.write m, .sum []]
  exact copy_of (H := (Spec.Haval.hash 5 224)) hd h rfl ((DigestLen.haval 5 224 (Or.inr (Or.inr (Or.inr (Or.inl rfl))))) m)

theorem C126_havalSum256_3 (m : Bytes) : havalSum256_3 m = some ((Spec.Haval.hash 3 256) m) := by
  unfold havalSum256_3
  obtain ⟨d, hd, h⟩ := C55_haval_contract 3 256 (Or.inl rfl) (Or.inr (Or.inr (Or.inr (Or.inr rfl))))
  have h := h [.write m, .sum []]
  exact copy_of (H := (Spec.Haval.hash 3 256)) hd h rfl ((DigestLen.haval 3 256 (Or.inr (Or.inr (Or.inr (Or.inr rfl))))) m)

theorem C126_havalSum256_4 (m : Bytes) : havalSum256_4 m = some ((Spec.Haval.hash 4 256) m) := by
  unfold havalSum256_4
  obtain ⟨d, hd, h⟩ := C55_haval_contract 4 256 (Or.inr (Or.inl rfl)) (Or.inr (Or.inr (Or.inr (Or.inr rfl))))
  have h := h [.write m, .sum []]
  exact copy_of (H := (Spec.Haval.hash 4 256)) hd h rfl ((DigestLen.haval 4 256 (Or.inr (Or.inr (Or.inr (Or.inr rfl))))) m)

theorem C126_havalSum256_5 (m : Bytes) : havalSum256_5 m = some ((Spec.Haval.hash 5 256) m) := by
  unfold havalSum256_5
  obtain ⟨d, hd, h⟩ := C55_haval_contract 5 256 (Or.inr (Or.inr rfl)) (Or.inr (Or.inr (Or.inr (Or.inr rfl))))
  have h := h [.write m, .sum []]
  exact copy_of (H := (Spec.Haval.hash 5 256)) hd h rfl ((DigestLen.haval 5 256 (Or.inr (Or.inr (Or.inr (Or.inr rfl))))) m)

theorem C126_cubehashSumHS512 (m : Bytes) : cubehashSumHS512 m = some ((Spec.CubeHash.hash ⟨512, 32, 16, 16, 32⟩) m) := by
  unfold cubehashSumHS512
  exact copy_of (H := (Spec.CubeHash.hash ⟨512, 32, 16, 16, 32⟩)) rfl (C48_cubehash_contract_partial ⟨512, 32, 16, 16, 32⟩ ⟨by decide, by decide, by decide, by decide, by decide⟩ [.write m, .sum []]) (by rfl) ((DigestLen.cubehash ⟨512, 32, 16, 16, 32⟩ (by decide)) m)

theorem C126_cubehashSumHS384 (m : Bytes) : cubehashSumHS384 m = some ((Spec.CubeHash.hash ⟨384, 32, 16, 16, 32⟩) m) := by
  unfold cubehashSumHS384
  exact copy_of (H := (Spec.CubeHash.hash ⟨384, 32, 16, 16, 32⟩)) rfl (C48_cubehash_contract_partial ⟨384, 32, 16, 16, 32⟩ ⟨by decide, by decide, by decide, by decide, by decide⟩ [.write m, .sum []]) (by rfl) ((DigestLen.cubehash ⟨384, 32, 16, 16, 32⟩ (by decide)) m)

theorem C126_cubehashSumHS256 (m : Bytes) : cubehashSumHS256 m = some ((Spec.CubeHash.hash ⟨256, 32, 16, 16, 32⟩) m) := by
  unfold cubehashSumHS256
  exact copy_of (H := (Spec.CubeHash.hash ⟨256, 32, 16, 16, 32⟩)) rfl (C48_cubehash_contract_partial ⟨256, 32, 16, 16, 32⟩ ⟨by decide, by decide, by decide, by decide, by decide⟩ [.write m, .sum []]) (by rfl) ((DigestLen.cubehash ⟨256, 32, 16, 16, 32⟩ (by decide)) m)

theorem C126_cubehashSumHS224 (m : Bytes) : cubehashSumHS224 m = some ((Spec.CubeHash.hash ⟨224, 32, 16, 16, 32⟩) m) := by
  unfold cubehashSumHS224
  exact copy_of (H := (Spec.CubeHash.hash ⟨224, 32, 16, 16, 32⟩)) rfl (C48_cubehash_contract_partial ⟨224, 32, 16, 16, 32⟩ ⟨by decide, by decide, by decide, by decide, by decide⟩ [.write m, .sum []]) (by rfl) ((DigestLen.cubehash ⟨224, 32, 16, 16, 32⟩ (by decide)) m)

theorem C126_cubehashSumHS192 (m : Bytes) : cubehashSumHS192 m = some ((Spec.CubeHash.hash ⟨192, 32, 16, 16, 32⟩) m) := by
  unfold cubehashSumHS192
  exact copy_of (H := (Spec.CubeHash.hash ⟨192, 32, 16, 16, 32⟩)) rfl (C48_cubehash_contract_partial ⟨192, 32, 16, 16, 32⟩ ⟨by decide, by decide, by decide, by decide, by decide⟩ [.write m, .sum []]) (by rfl) ((DigestLen.cubehash ⟨192, 32, 16, 16, 32⟩ (by decide)) m)

theorem C126_cubehashSumHS160 (m : Bytes) : cubehashSumHS160 m = some ((Spec.CubeHash.hash ⟨160, 32, 16, 16, 32⟩) m) := by
  unfold cubehashSumHS160
  exact copy_of (H := (Spec.CubeHash.hash ⟨160, 32, 16, 16, 32⟩)) rfl (C48_cubehash_contract_partial ⟨160, 32, 16, 16, 32⟩ ⟨by decide, by decide, by decide, by decide, by decide⟩ [.write m, .sum []]) (by rfl) ((DigestLen.cubehash ⟨160, 32, 16, 16, 32⟩ (by decide)) m)

theorem C126_cubehashSumHS128 (m : Bytes) : cubehashSumHS128 m = some ((Spec.CubeHash.hash ⟨128, 32, 16, 16, 32⟩) m) := by
  unfold cubehashSumHS128
  exact copy_of (H := (Spec.CubeHash.hash ⟨128, 32, 16, 16, 32⟩)) rfl (C48_cubehash_contract_partial ⟨128, 32, 16, 16, 32⟩ ⟨by decide, by decide, by decide, by decide, by decide⟩ [.write m, .sum []]) (by rfl) ((DigestLen.cubehash ⟨128, 32, 16, 16, 32⟩ (by decide)) m)

theorem C126_cubehashSumSH512 (m : Bytes) : cubehashSumSH512 m = some ((Spec.CubeHash.hash ⟨512, 32, 16, 160, 160⟩) m) := by
  unfold cubehashSumSH512
  exact copy_of (H := (Spec.CubeHash.hash ⟨512, 32, 16, 160, 160⟩)) rfl (C48_cubehash_contract_partial ⟨512, 32, 16, 160, 160⟩ ⟨by decide, by decide, by decide, by decide, by decide⟩ [.write m, .sum []]) (by rfl) ((DigestLen.cubehash ⟨512, 32, 16, 160, 160⟩ (by decide)) m)

theorem C126_cubehashSumSH256 (m : Bytes) : cubehashSumSH256 m = some ((Spec.CubeHash.hash ⟨256, 32, 16, 160, 160⟩) m) := by
  unfold cubehashSumSH256
  exact copy_of (H := (Spec.CubeHash.hash ⟨256, 32, 16, 160, 160⟩)) rfl (C48_cubehash_contract_partial ⟨256, 32, 16, 160, 160⟩ ⟨by decide, by decide, by decide, by decide, by decide⟩ [.write m, .sum []]) (by rfl) ((DigestLen.cubehash ⟨256, 32, 16, 160, 160⟩ (by decide)) m)

theorem C126_cubehashSumSH224 (m : Bytes) : cubehashSumSH224 m = some ((Spec.CubeHash.hash ⟨224, 32, 16, 160, 160⟩) m) := by
  unfold cubehashSumSH224
  exact copy_of (H := (Spec.CubeHash.hash ⟨224, 32, 16, 160, 160⟩)) rfl (C48_cubehash_contract_partial ⟨224, 32, 16, 160, 160⟩ ⟨by decide, by decide, by decide, by decide, by decide⟩ [.write m, .sum []]) (by rfl) ((DigestLen.cubehash ⟨224, 32, 16, 160, 160⟩ (by decide)) m)

theorem C126_cubehashSumSH192 (m : Bytes) : cubehashSumSH192 m = some ((Spec.CubeHash.hash ⟨192, 32, 16, 160, 160⟩) m) := by
  unfold cubehashSumSH192
  exact copy_of (H := (Spec.CubeHash.hash ⟨192, 32, 16, 160, 160⟩)) rfl (C48_cubehash_contract_partial ⟨192, 32, 16, 160, 160⟩ ⟨by decide, by decide, by decide, by decide, by decide⟩ [.write m, .sum []]) (by rfl) ((DigestLen.cubehash ⟨192, 32, 16, 160, 160⟩ (by decide)) m)

theorem C126_jh2Sum224 (m : Bytes) (hm : m.length < 2 ^ 64) : jh2Sum224 m = some ((Spec.JH.hash 28) m) := by
  unfold jh2Sum224
  exact copy_of (H := (Spec.JH.hash 28)) rfl (C38_jh2_contract 28 (Or.inl rfl) [.write m, .sum []] (fits_one hm)) (by rfl) ((DigestLen.jh 28 (by decide)) m)

theorem C126_jh2Sum256 (m : Bytes) (hm : m.length < 2 ^ 64) : jh2Sum256 m = some ((Spec.JH.hash 32) m) := by
  unfold jh2Sum256
  exact copy_of (H := (Spec.JH.hash 32)) rfl (C38_jh2_contract 32 (Or.inr (Or.inl rfl)) [.write m, .sum []] (fits_one hm)) (by rfl) ((DigestLen.jh 32 (by decide)) m)

theorem C126_jh2Sum384 (m : Bytes) (hm : m.length < 2 ^ 64) : jh2Sum384 m = some ((Spec.JH.hash 48) m) := by
  unfold jh2Sum384
  exact copy_of (H := (Spec.JH.hash 48)) rfl (C38_jh2_contract 48 (Or.inr (Or.inr (Or.inl rfl))) [.write m, .sum []] (fits_one hm)) (by rfl) ((DigestLen.jh 48 (by decide)) m)

theorem C126_jh2Sum512 (m : Bytes) (hm : m.length < 2 ^ 64) : jh2Sum512 m = some ((Spec.JH.hash 64) m) := by
  unfold jh2Sum512
  exact copy_of (H := (Spec.JH.hash 64)) rfl (C38_jh2_contract 64 (Or.inr (Or.inr (Or.inr rfl))) [.write m, .sum []] (fits_one hm)) (by rfl) ((DigestLen.jh 64 (by decide)) m)

theorem C126_whirlpoolSum (m : Bytes) (hm : m.length < 2 ^ 60) : whirlpoolSum m = some ((Spec.Whirlpool.hash Spec.Whirlpool.final) m) := by
  unfold whirlpoolSum
  exact copy_of (H := (Spec.Whirlpool.hash Spec.Whirlpool.final)) rfl (C32_whirlpool_contract [.write m, .sum []] (short_one hm)) (by rfl) ((DigestLen.whirlpool _) m)

theorem C126_whirlpoolSum0 (m : Bytes) (hm : m.length < 2 ^ 60) : whirlpoolSum0 m = some ((Spec.Whirlpool.hash Spec.Whirlpool.version0) m) := by
  unfold whirlpoolSum0
  exact copy_of (H := (Spec.Whirlpool.hash Spec.Whirlpool.version0)) rfl (C32_whirlpool0_contract [.write m, .sum []] (short_one hm)) (by rfl) ((DigestLen.whirlpool _) m)

theorem C126_whirlpoolSum1 (m : Bytes) (hm : m.length < 2 ^ 60) : whirlpoolSum1 m = some ((Spec.Whirlpool.hash Spec.Whirlpool.versionT) m) := by
  unfold whirlpoolSum1
  exact copy_of (H := (Spec.Whirlpool.hash Spec.Whirlpool.versionT)) rfl (C32_whirlpoolT_contract [.write m, .sum []] (short_one hm)) (by rfl) ((DigestLen.whirlpool _) m)

theorem k12_write_hs (d : K12.Digest) (p : Bytes) : (d.write p).1.hashSize = d.hashSize := by
  have hn : ∀ t : K12.Digest, t.nextChunk.hashSize = t.hashSize := by
    intro t; unfold K12.Digest.nextChunk; split <;> (try split) <;> rfl
  have ha : ∀ (t : K12.Digest) q, (t.absorb q).hashSize = t.hashSize := by
    intro t q; unfold K12.Digest.absorb; split <;> rfl
  have hl : ∀ fuel (t : K12.Digest) q, (K12.Digest.writeLoop fuel t q).hashSize = t.hashSize := by
    intro fuel
    induction fuel with
    | zero => intro t q; rfl
    | succ n ih =>
      intro t q
      rw [K12.Digest.writeLoop]
      split
      · rfl
      · dsimp only; rw [ih, ha, hn]
  unfold K12.Digest.write
  split
  · rfl
  · exact hl _ _ _

theorem k12_sum_neg (d : K12.Digest) (b : Bytes) (h : d.hashSize < 0) : d.sum b = none := by
  unfold K12.Digest.sum
  rw [if_pos h]

theorem fsb_one {m : Bytes} (h : m.length ≤ 2 ^ 29 - 256) : FSBWrites [.write m, .sum []] := by
  intro p hp
  simp only [List.mem_cons, List.not_mem_nil, or_false, reduceCtorEq, Op.write.injEq] at hp
  subst hp
  exact h

/-- jh: right for every slice, whatever memory lies behind it (the streaming object is not: C38). -/
theorem C126_jhSum (spare : Bytes → Bytes) (m : Bytes) (hm : m.length < 2 ^ 61) : jhSum spare m = some (Spec.JH.hash 32 m) := by
  unfold jhSum
  have h := C38_jh_aligned_partial spare [.write m, .sum []] ⟨⟨Or.inl rfl, by omega⟩, trivial, trivial⟩
  exact copy_of (H := Spec.JH.hash 32) rfl h rfl (DigestLen.jh 32 (by decide) m)

/-- esch: right for every input, although the streaming object depends on the division into Writes (C29). -/
theorem C126_eschSum256 (m : Bytes) : eschSum256 m = some (Spec.Esch.hash Spec.Esch.esch256 m) := by
  unfold eschSum256
  have h := C29_esch_partial 256 _ (Or.inl rfl) rfl [.write m, .sum []] ⟨Or.inr (Or.inr (Nat.le_refl 1)), trivial⟩
  exact slice_of (H := Spec.Esch.hash Spec.Esch.esch256) rfl h rfl (DigestLen.esch _ rfl (by decide) m)
theorem C126_eschSum384 (m : Bytes) : eschSum384 m = some (Spec.Esch.hash Spec.Esch.esch384 m) := by
  unfold eschSum384
  have h := C29_esch_partial 384 _ (Or.inr rfl) rfl [.write m, .sum []] ⟨Or.inr (Or.inr (Nat.le_refl 1)), trivial⟩
  exact slice_of (H := Spec.Esch.hash Spec.Esch.esch384) rfl h rfl (DigestLen.esch _ rfl (by decide) m)

/-- k12: KangarooTwelve with the customization string, for any size of at least 0; negative sizes panic. -/
theorem C126_k12SumWithSize (c m : Bytes) (hc : c.length < 2 ^ 63) (hm : m.length < 2 ^ 63) (n : Int) :
    k12SumWithSize c m n = if n < 0 then none else some (Spec.K12.kt m c n.toNat) := by
  unfold k12SumWithSize
  by_cases h : n < 0
  · rw [if_pos h]
    unfold calls
    simp only [Option.bind_eq_bind, Option.bind_some]
    cases e : K12.impl.write (K12.newDigest c n) m with
    | none => rfl
    | some x =>
      obtain ⟨d, k⟩ := x
      rw [Option.bind_some]
      have hs : d.hashSize = n := by
        have h1 : (K12.newDigest c n).write m = (d, k) := by
          have : some ((K12.newDigest c n).write m) = some (d, k) := e
          exact Option.some.inj this
        have h2 : ((K12.newDigest c n).write m).1.hashSize = (K12.newDigest c n).hashSize := k12_write_hs _ _
        rw [h1] at h2
        exact h2
      have : K12.impl.sum d [] = none := by
        show (d.sum []).map _ = none
        rw [k12_sum_neg d [] (by rw [hs]; exact h)]; rfl
      rw [this]; rfl
  · rw [if_neg h]
    obtain ⟨k, rfl⟩ := Int.eq_ofNat_of_zero_le (Int.not_lt.mp h)
    have h := C28_k12_noReset c hc k [.write m, .sum []] (by simp) (by simpa using hm)
    exact calls_of (H := fun m => Spec.K12.kt m c k) rfl h rfl

theorem C126_k12Sum (c m : Bytes) (hc : c.length < 2 ^ 63) (hm : m.length < 2 ^ 63) : k12Sum c m = some (Spec.K12.kt m c 32) := by
  unfold k12Sum
  have h := C28_k12_noReset c hc 32 [.write m, .sum []] (by simp) (by simpa using hm)
  exact copy_of (H := fun m => Spec.K12.kt m c 32) rfl h rfl (DigestLen.k12 m c 32)

/-- fsb.Sum: an error for every size but the six of the standard, and otherwise the FSB digest with the standard's parameters. -/
theorem C126_fsbSum (pi : Nat → Byte) (m : Bytes) (hm : m.length ≤ 2 ^ 29 - 256) (n : Int) :
    fsbSum pi m n = some (((fsbSizes.find? fun e => e.1 = n).map Prod.snd).map fun P => Spec.FSB.hash pi P m) := by
  unfold fsbSum
  rw [← C56_fsb_new]
  cases e : FSB.new n with
  | none => rfl
  | some c =>
    have h := C56_fsb_contract_partial pi n c e [.write m, .sum []] (fsb_one hm)
    dsimp only
    rw [calls_of (H := Spec.FSB.hash pi c.spec) rfl h rfl]
    rfl

theorem C126_fsbSumN (pi : Nat → Byte) (m : Bytes) (hm : m.length ≤ 2 ^ 29 - 256) :
    fsbSumN pi 160 20 m = some (Spec.FSB.hash pi Spec.FSB.fsb160 m) ∧ fsbSumN pi 224 28 m = some (Spec.FSB.hash pi Spec.FSB.fsb224 m) ∧
    fsbSumN pi 256 32 m = some (Spec.FSB.hash pi Spec.FSB.fsb256 m) ∧ fsbSumN pi 384 48 m = some (Spec.FSB.hash pi Spec.FSB.fsb384 m) ∧
    fsbSumN pi 512 64 m = some (Spec.FSB.hash pi Spec.FSB.fsb512 m) := by
  have key : ∀ (n : Int) (k : Nat) (P : Spec.FSB.Params), (fsbSizes.find? fun e => e.1 = n).map Prod.snd = some P → P.hashbits / 8 = k → k ≤ 64 →
      fsbSumN pi n k m = some (Spec.FSB.hash pi P m) := by
    intro n k P h1 h2 h3
    rw [← C56_fsb_new] at h1
    unfold fsbSumN
    cases e : FSB.new n with
    | none => rw [e] at h1; exact absurd h1 (by simp)
    | some c =>
      rw [e, Option.map_some, Option.some.injEq] at h1
      have h := C56_fsb_contract_partial pi n c e [.write m, .sum []] (fsb_one hm)
      rw [Option.bind_some, ← h1]
      exact slice_of (H := Spec.FSB.hash pi c.spec) rfl h rfl (by rw [h1, DigestLen.fsb pi P (by omega), h2])
  exact ⟨key 160 20 _ rfl rfl (by decide), key 224 28 _ rfl rfl (by decide), key 256 32 _ rfl rfl (by decide), key 384 48 _ rfl rfl (by decide), key 512 64 _ rfl rfl (by decide)⟩

/-! ### C127: one-shot functions that are right on part of their inputs -/

/-- streebog: when no checksum addition ripples (C33), in particular below 64 bytes. -/
theorem C127_streebog_partial (m : Bytes) (hm : m.length < 2 ^ 61) (hc : Spec.Streebog.CarrySafe m) :
    streebogSum256 m = some (Spec.Streebog.hash 32 m) ∧ streebogSum512 m = some (Spec.Streebog.hash 64 m) := by
  have hs : SumsOn (fun ps => ps.flatten.length < 2 ^ 61 ∧ Spec.Streebog.CarrySafe ps.flatten) [] [.write m, .sum []] := by
    refine ⟨⟨?_, ?_⟩, trivial⟩
    · simpa using hm
    · simpa using hc
  constructor
  · unfold streebogSum256
    exact slice_of (H := Spec.Streebog.hash 32) rfl (C33_streebog_partial 256 _ rfl _ hs) rfl (DigestLen.streebog 32 (by decide) m)
  · unfold streebogSum512
    exact slice_of (H := Spec.Streebog.hash 64) rfl (C33_streebog_partial 512 _ rfl _ hs) rfl (DigestLen.streebog 64 (by decide) m)

/-- skeins: when the message is empty or does not fill its last block. -/
theorem C127_skeins_partial (m : Bytes) (hm : m.length < 2 ^ 64) (hr : Ragged 64 m) :
    skeinsSum224 m = some (Spec.Skein.skein 8 28 none [] m) ∧ skeinsSum256 m = some (Spec.Skein.skein 8 32 none [] m) ∧
    skeinsSum384 m = some (Spec.Skein.skein 8 48 none [] m) ∧ skeinsSum512 m = some (Spec.Skein.skein 8 64 none [] m) := by
  have hs : SumsOn (RaggedSum 64) [] [.write m, .sum []] := by
    refine ⟨⟨?_, ?_⟩, trivial⟩
    · simpa using hm
    · simpa using hr
  obtain ⟨h1, h2, h3, h4⟩ := C39_skeins_partial
  refine ⟨?_, ?_, ?_, ?_⟩
  · unfold skeinsSum224
    exact copy_of (H := Spec.Skein.skein 8 28 none []) rfl (h1 _ hs) rfl (DigestLen.skein 8 (by decide) 28 none [] m)
  · unfold skeinsSum256
    exact copy_of (H := Spec.Skein.skein 8 32 none []) rfl (h2 _ hs) rfl (DigestLen.skein 8 (by decide) 32 none [] m)
  · unfold skeinsSum384
    exact copy_of (H := Spec.Skein.skein 8 48 none []) rfl (h3 _ hs) rfl (DigestLen.skein 8 (by decide) 48 none [] m)
  · unfold skeinsSum512
    exact copy_of (H := Spec.Skein.skein 8 64 none []) rfl (h4 _ hs) rfl (DigestLen.skein 8 (by decide) 64 none [] m)

theorem keyWords_len (k : Bytes) : (Spec.BLAKE3.keyWords k).length = 8 := by unfold Spec.BLAKE3.keyWords; rw [List.length_map, List.length_range]

/-- blake3: for data (and contexts) below 256 KiB. -/
theorem C127_blake3_partial (m : Bytes) (hm : m.length < 256 * 1024) :
    blake3Sum m = some (Spec.BLAKE3.hash 32 m) ∧
    (∀ key, blake3SumWithKeyed m key = some (if key.length = 32 then some (Spec.BLAKE3.keyed key 32 m) else none)) ∧
    (∀ context, context.length < 256 * 1024 → blake3SumWithDeriveKey m context = some (Spec.BLAKE3.deriveKey context 32 m)) := by
  have hf : Fits (256 * 1024) [.write m, .sum []] := by
    generalize 256 * 1024 = N at hm ⊢
    exact fits_one hm
  refine ⟨?_, ?_, ?_⟩
  · unfold blake3Sum
    exact copy_of (H := Spec.BLAKE3.hash 32) rfl (C27_blake3_partial 32 [.write m, .sum []] hf) (by dsimp only) (by unfold Spec.BLAKE3.hash; exact DigestLen.blake3 _ rfl _ 32 m)
  · intro key
    unfold blake3SumWithKeyed
    obtain ⟨h1, h2⟩ := C27_blake3_keyed_partial key 32
    cases e : BLAKE3.NewWithKeyedAndSize key 32 with
    | none =>
      rw [e] at h1
      have : key.length ≠ 32 := by intro h; rw [h] at h1; exact absurd h1 (by decide)
      rw [if_neg this]
    | some d =>
      rw [e] at h1
      have hk : key.length = 32 := by simpa using h1
      rw [if_pos hk]
      dsimp only
      rw [copy_of (H := Spec.BLAKE3.keyed key 32) rfl (h2 d e [.write m, .sum []] hf) (by dsimp only) (by unfold Spec.BLAKE3.keyed; exact DigestLen.blake3 _ (keyWords_len _) _ 32 m)]
      rfl
  · intro context hc
    unfold blake3SumWithDeriveKey
    obtain ⟨d, hd, h⟩ := C27_blake3_derive_partial context hc 32
    exact copy_of (H := Spec.BLAKE3.deriveKey context 32) hd (h [.write m, .sum []] hf) (by dsimp only) (by unfold Spec.BLAKE3.deriveKey; exact DigestLen.blake3 _ (keyWords_len _) _ 32 m)

/-- streebog.Sum256 is not GOST R 34.11-2012 (256 bits) on the 128-byte message of C33. -/
theorem C127_streebog_violated : streebogSum256 rippleMsg ≠ some (Spec.Streebog.hash 32 rippleMsg) := by
  intro h
  unfold streebogSum256 at h
  have hn : Streebog.new 256 = some (Streebog.reset { c := { s := List.replicate 8 0, len := 0, S := List.replicate 8 0 }, x := zeros 64, nx := 0, hs := 256 }) := rfl
  rw [hn] at h
  generalize hd : Streebog.reset { c := { s := List.replicate 8 0, len := 0, S := List.replicate 8 0 }, x := zeros 64, nx := 0, hs := 256 } = d at *
  have hr : Streebog.Repr 256 d [] := by rw [← hd]; exact Streebog.repr_reset rfl
  have hl : rippleMsg.length < 2 ^ 61 := by
    have : rippleMsg.length = 128 := by decide +kernel
    rw [this]; decide
  have hw := Streebog.repr_write hr rippleMsg
  rw [List.nil_append] at hw
  have hc : calls Streebog.impl (some d) rippleMsg = some (Streebog.checkSum (Streebog.write d rippleMsg)) := rfl
  unfold sumSlice at h
  rw [hc, Option.bind_some, checkSum_eval (Or.inl rfl) hw hl] at h
  have hle : (evalHash Streebog.addm 256 rippleMsg).length ≤ 32 := by
    unfold evalHash
    dsimp only
    rw [List.length_take]
    exact Nat.min_le_left _ _
  have hne := ripple_differs
  rw [← hash_eval (Or.inl rfl) _ hl, show 256 / 8 = 32 from rfl] at hne
  generalize evalHash Streebog.addm 256 rippleMsg = r at *
  by_cases h32 : 32 ≤ r.length
  · rw [if_pos h32, List.take_of_length_le hle, goCopy_exact 32 r (by omega), Option.some.injEq] at h
    exact hne h
  · rw [if_neg h32] at h; exact absurd h (by simp)

/-- skeins.Sum512 is not Skein-512-512 on 64 zero bytes. -/
theorem C127_skeins_violated : skeinsSum512 (zeros 64) ≠ some (Spec.Skein.skein 8 64 none [] (zeros 64)) := by
  intro h
  apply C39_skeins_full_block_violated
  have h1 := C39_skeins_streaming Skeins.code512 (by decide) 64 Skeins.initVal512 [.write (zeros 64), .sum []]
  have hl : (skeinsH Skeins.code512 64 Skeins.initVal512 (zeros 64)).length = 64 := by
    unfold skeinsH Skeins.checkSum
    dsimp only
    rw [goCopy_length _ _ _ (Nat.zero_le _), zeros_length]
  have h2 := copy_of (c := some (Skeins.new Skeins.code512 64 Skeins.initVal512)) (H := skeinsH Skeins.code512 64 Skeins.initVal512) rfl h1 rfl hl
  unfold skeinsSum512 Skeins.new512 at h
  rw [h2, Option.some.injEq] at h
  unfold Skeins.new512
  rw [h1]
  simp only [HashSpec.run, List.nil_append, skeinSpec, h]

-- The hypotheses of C127 are met, for instance, by the message 01 02 03.
example : Spec.Streebog.CarrySafe [1, 2, 3] ∧ Ragged 64 [1, 2, 3] := ⟨C33_short_carrySafe _ (by decide), Or.inr (by decide)⟩
-- Tests: digests of "abc" that the packages' tests list, computed by the model.
example : (ripemdSum160 [0x61, 0x62, 0x63]).map (·.take 4) = some [0x8e, 0xb2, 0x08, 0xf7] := by decide +kernel
example : (sm3Sum [0x61, 0x62, 0x63]).map (·.take 4) = some [0x66, 0xc7, 0xf0, 0xf4] := by decide +kernel

end Verif.Props
