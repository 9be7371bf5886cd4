import Verif.Model.Ctors
import Verif.Props.C08_Tiger
import Verif.Props.C11_SipHash
import Verif.Props.C16_Chaskey
import Verif.Props.C30_MD6
import Verif.Props.C37_Groestl
import Verif.Props.C39_Skein512
import Verif.Props.C48_CubeHash
import Verif.Props.C50_Echo
import Verif.Props.C50_Shabal
import Verif.Props.C55_Haval
import Verif.Props.C56_FSB
/-
C138: the exported constructors that name a variant.  (The statements are generated from a table.)
-/
namespace Verif.Props
open Verif.Ctors

/-- The constructor returns an object, and it answers every history of calls (of the kind `P`) as an object computing `S` does. -/
def Constructs (P : List Op → Prop) (o : Option Obj) (S : HashSpec) : Prop := ∃ x, o = some x ∧ RefinesOn P x.I x.d S
/-- All histories. -/
def AllHist : List Op → Prop := fun _ => True
/-- The nil pointer: nothing can be called on it. -/
def ConstructsNil (o : Option Obj) : Prop := o = none

theorem constructs_all {σ} {I : HashImpl σ} {c : Option σ} {S S' : HashSpec} (h : ∃ d, c = some d ∧ Refines I d S) (e : S = S') :
    Constructs AllHist (dropError I c) S' := by
  obtain ⟨d, rfl, h⟩ := h
  subst e
  exact ⟨⟨σ, I, d⟩, rfl, fun ops _ => h ops⟩

theorem constructs_on {σ} {I : HashImpl σ} {P : List Op → Prop} {c : Option σ} {S S' : HashSpec} (h : ∃ d, c = some d ∧ RefinesOn P I d S) (e : S = S') :
    Constructs P (dropError I c) S' := by
  obtain ⟨d, rfl, h⟩ := h
  subst e
  exact ⟨⟨σ, I, d⟩, rfl, h⟩

theorem spec_run_congr {N : Nat} {S S' : HashSpec} (hH : ∀ m, m.length < N → S.H m = S'.H m) (hs : S.size = S'.size) (hb : S.blockSize = S'.blockSize) :
    ∀ (ops : List Op) (m : Bytes), (∀ k, (msgAfter m (ops.take k)).length < N) → S.run m ops = S'.run m ops := by
  intro ops
  induction ops with
  | nil => intro m _; rfl
  | cons op ops ih =>
    intro m h
    have h0 : m.length < N := h 0
    cases op with
    | write p => rw [HashSpec.run, HashSpec.run, ih _ (fun k => h (k + 1))]
    | sum b => rw [HashSpec.run, HashSpec.run, ih _ (fun k => h (k + 1)), hH m h0]
    | reset => rw [HashSpec.run, HashSpec.run, ih _ (fun k => h (k + 1))]
    | size => rw [HashSpec.run, HashSpec.run, ih _ (fun k => h (k + 1)), hs]
    | blockSize => rw [HashSpec.run, HashSpec.run, ih _ (fun k => h (k + 1)), hb]

/-- NewHS*: CubeHash16+16/32+32-h; NewSH*: CubeHash160+16/32+160-h.  Missing: NewHS512x (`C48_cubehash_hs512x_violated`). -/
theorem C138_cubehash_partial :
    Constructs AllHist cubehashNewHS512 { H := Spec.CubeHash.hash { h := 512, b := 32, r := 16, i := 16, f := 32 }, size := 64, blockSize := 32 } ∧
    Constructs AllHist cubehashNewHS384 { H := Spec.CubeHash.hash { h := 384, b := 32, r := 16, i := 16, f := 32 }, size := 48, blockSize := 32 } ∧
    Constructs AllHist cubehashNewHS256 { H := Spec.CubeHash.hash { h := 256, b := 32, r := 16, i := 16, f := 32 }, size := 32, blockSize := 32 } ∧
    Constructs AllHist cubehashNewHS224 { H := Spec.CubeHash.hash { h := 224, b := 32, r := 16, i := 16, f := 32 }, size := 28, blockSize := 32 } ∧
    Constructs AllHist cubehashNewHS192 { H := Spec.CubeHash.hash { h := 192, b := 32, r := 16, i := 16, f := 32 }, size := 24, blockSize := 32 } ∧
    Constructs AllHist cubehashNewHS160 { H := Spec.CubeHash.hash { h := 160, b := 32, r := 16, i := 16, f := 32 }, size := 20, blockSize := 32 } ∧
    Constructs AllHist cubehashNewHS128 { H := Spec.CubeHash.hash { h := 128, b := 32, r := 16, i := 16, f := 32 }, size := 16, blockSize := 32 } ∧
    Constructs AllHist cubehashNewSH512 { H := Spec.CubeHash.hash { h := 512, b := 32, r := 16, i := 160, f := 160 }, size := 64, blockSize := 32 } ∧
    Constructs AllHist cubehashNewSH256 { H := Spec.CubeHash.hash { h := 256, b := 32, r := 16, i := 160, f := 160 }, size := 32, blockSize := 32 } ∧
    Constructs AllHist cubehashNewSH224 { H := Spec.CubeHash.hash { h := 224, b := 32, r := 16, i := 160, f := 160 }, size := 28, blockSize := 32 } ∧
    Constructs AllHist cubehashNewSH192 { H := Spec.CubeHash.hash { h := 192, b := 32, r := 16, i := 160, f := 160 }, size := 24, blockSize := 32 } := by
  have H : ∀ P : Spec.CubeHash.Params, CubeHash.Ok P →
      Constructs AllHist (some ⟨_, CubeHash.impl, CubeHash.new P.h P.b P.r P.i P.f⟩) { H := Spec.CubeHash.hash P, size := P.h / 8, blockSize := P.b } :=
    fun P ok => ⟨_, rfl, fun ops _ => C48_cubehash_contract_partial P ok ops⟩
  refine ⟨H ⟨512, 32, 16, 16, 32⟩ ⟨by decide, by decide, by decide, by decide, by decide⟩, H ⟨384, 32, 16, 16, 32⟩ ⟨by decide, by decide, by decide, by decide, by decide⟩, H ⟨256, 32, 16, 16, 32⟩ ⟨by decide, by decide, by decide, by decide, by decide⟩, H ⟨224, 32, 16, 16, 32⟩ ⟨by decide, by decide, by decide, by decide, by decide⟩, H ⟨192, 32, 16, 16, 32⟩ ⟨by decide, by decide, by decide, by decide, by decide⟩, H ⟨160, 32, 16, 16, 32⟩ ⟨by decide, by decide, by decide, by decide, by decide⟩, H ⟨128, 32, 16, 16, 32⟩ ⟨by decide, by decide, by decide, by decide, by decide⟩, H ⟨512, 32, 16, 160, 160⟩ ⟨by decide, by decide, by decide, by decide, by decide⟩, H ⟨256, 32, 16, 160, 160⟩ ⟨by decide, by decide, by decide, by decide, by decide⟩, H ⟨224, 32, 16, 160, 160⟩ ⟨by decide, by decide, by decide, by decide, by decide⟩, H ⟨192, 32, 16, 160, 160⟩ ⟨by decide, by decide, by decide, by decide, by decide⟩⟩

/-- NewHS512x, which names CubeHash16+16/1+32-512, does not compute it (its digests ignore the contents of the message). -/
theorem C138_cubehash_hs512x_violated :
    ¬ Constructs AllHist cubehashNewHS512x { H := Spec.CubeHash.hash { h := 512, b := 1, r := 16, i := 16, f := 32 }, size := 64, blockSize := 1 } := by
  rintro ⟨x, hx, h⟩
  cases hx
  exact C48_cubehash_hs512x_violated fun ops => h ops trivial

theorem C138_haval :
    Constructs AllHist havalNew128_3 { H := Spec.Haval.hash 3 128, size := 16, blockSize := 128 } ∧
    Constructs AllHist havalNew128_4 { H := Spec.Haval.hash 4 128, size := 16, blockSize := 128 } ∧
    Constructs AllHist havalNew128_5 { H := Spec.Haval.hash 5 128, size := 16, blockSize := 128 } ∧
    Constructs AllHist havalNew160_3 { H := Spec.Haval.hash 3 160, size := 20, blockSize := 128 } ∧
    Constructs AllHist havalNew160_4 { H := Spec.Haval.hash 4 160, size := 20, blockSize := 128 } ∧
    Constructs AllHist havalNew160_5 { H := Spec.Haval.hash 5 160, size := 20, blockSize := 128 } ∧
    Constructs AllHist havalNew192_3 { H := Spec.Haval.hash 3 192, size := 24, blockSize := 128 } ∧
    Constructs AllHist havalNew192_4 { H := Spec.Haval.hash 4 192, size := 24, blockSize := 128 } ∧
    Constructs AllHist havalNew192_5 { H := Spec.Haval.hash 5 192, size := 24, blockSize := 128 } ∧
    Constructs AllHist havalNew224_3 { H := Spec.Haval.hash 3 224, size := 28, blockSize := 128 } ∧
    Constructs AllHist havalNew224_4 { H := Spec.Haval.hash 4 224, size := 28, blockSize := 128 } ∧
    Constructs AllHist havalNew224_5 { H := Spec.Haval.hash 5 224, size := 28, blockSize := 128 } ∧
    Constructs AllHist havalNew256_3 { H := Spec.Haval.hash 3 256, size := 32, blockSize := 128 } ∧
    Constructs AllHist havalNew256_4 { H := Spec.Haval.hash 4 256, size := 32, blockSize := 128 } ∧
    Constructs AllHist havalNew256_5 { H := Spec.Haval.hash 5 256, size := 32, blockSize := 128 } := by
  refine ⟨constructs_all (C55_haval_contract 3 128 (by decide) (by decide)) rfl, constructs_all (C55_haval_contract 4 128 (by decide) (by decide)) rfl, constructs_all (C55_haval_contract 5 128 (by decide) (by decide)) rfl, constructs_all (C55_haval_contract 3 160 (by decide) (by decide)) rfl, constructs_all (C55_haval_contract 4 160 (by decide) (by decide)) rfl, constructs_all (C55_haval_contract 5 160 (by decide) (by decide)) rfl, constructs_all (C55_haval_contract 3 192 (by decide) (by decide)) rfl, constructs_all (C55_haval_contract 4 192 (by decide) (by decide)) rfl, constructs_all (C55_haval_contract 5 192 (by decide) (by decide)) rfl, constructs_all (C55_haval_contract 3 224 (by decide) (by decide)) rfl, constructs_all (C55_haval_contract 4 224 (by decide) (by decide)) rfl, constructs_all (C55_haval_contract 5 224 (by decide) (by decide)) rfl, constructs_all (C55_haval_contract 3 256 (by decide) (by decide)) rfl, constructs_all (C55_haval_contract 4 256 (by decide) (by decide)) rfl, constructs_all (C55_haval_contract 5 256 (by decide) (by decide)) rfl⟩

theorem C138_shabal :
    Constructs AllHist shabalNew192 { H := Spec.Shabal.hash 192, size := 24, blockSize := 64 } ∧
    Constructs AllHist shabalNew224 { H := Spec.Shabal.hash 224, size := 28, blockSize := 64 } ∧
    Constructs AllHist shabalNew256 { H := Spec.Shabal.hash 256, size := 32, blockSize := 64 } ∧
    Constructs AllHist shabalNew384 { H := Spec.Shabal.hash 384, size := 48, blockSize := 64 } ∧
    Constructs AllHist shabalNew512 { H := Spec.Shabal.hash 512, size := 64, blockSize := 64 } := by
  refine ⟨constructs_all (C50_shabal 6 (by decide) (by decide)) rfl, constructs_all (C50_shabal 7 (by decide) (by decide)) rfl, constructs_all (C50_shabal 8 (by decide) (by decide)) rfl, constructs_all (C50_shabal 12 (by decide) (by decide)) rfl, constructs_all (C50_shabal 16 (by decide) (by decide)) rfl⟩

theorem C138_echo :
    Constructs AllHist echoNew224 { H := Spec.Echo.hash 28 (zeros 16), size := 28, blockSize := 192 } ∧
    Constructs AllHist echoNew256 { H := Spec.Echo.hash 32 (zeros 16), size := 32, blockSize := 192 } ∧
    Constructs AllHist echoNew384 { H := Spec.Echo.hash 48 (zeros 16), size := 48, blockSize := 128 } ∧
    Constructs AllHist echoNew512 { H := Spec.Echo.hash 64 (zeros 16), size := 64, blockSize := 128 } := by
  refine ⟨constructs_all (C50_echo 28 (by decide) (by decide) [] (Or.inl rfl)) rfl, constructs_all (C50_echo 32 (by decide) (by decide) [] (Or.inl rfl)) rfl, constructs_all (C50_echo 48 (by decide) (by decide) [] (Or.inl rfl)) rfl, constructs_all (C50_echo 64 (by decide) (by decide) [] (Or.inl rfl)) rfl⟩

/-- For messages below 2^60 bytes. -/
theorem C138_groestl :
    Constructs (Fits (2 ^ 60)) groestlNew224 { H := Spec.Groestl.hash 224, size := 28, blockSize := 64 } ∧
    Constructs (Fits (2 ^ 60)) groestlNew256 { H := Spec.Groestl.hash 256, size := 32, blockSize := 64 } ∧
    Constructs (Fits (2 ^ 60)) groestlNew384 { H := Spec.Groestl.hash 384, size := 48, blockSize := 128 } ∧
    Constructs (Fits (2 ^ 60)) groestlNew512 { H := Spec.Groestl.hash 512, size := 64, blockSize := 128 } := by
  refine ⟨constructs_on (C37_groestl_contract_partial 224 (by decide) (by decide) (by decide)) rfl, constructs_on (C37_groestl_contract_partial 256 (by decide) (by decide) (by decide)) rfl, constructs_on (C37_groestl_contract_partial 384 (by decide) (by decide) (by decide)) rfl, constructs_on (C37_groestl_contract_partial 512 (by decide) (by decide) (by decide)) rfl⟩

/-- New: Tiger (marker 01); New2: Tiger2 (marker 80); shorter digests are prefixes. -/
theorem C138_tiger :
    Constructs AllHist tigerNew { H := fun m => (Spec.Tiger.hash Tiger.boxes 0x01#8 m).take 24, size := 24, blockSize := 64 } ∧
    Constructs AllHist tigerNew2 { H := fun m => (Spec.Tiger.hash Tiger.boxes 0x80#8 m).take 24, size := 24, blockSize := 64 } ∧
    Constructs AllHist tigerNew160 { H := fun m => (Spec.Tiger.hash Tiger.boxes 0x01#8 m).take 20, size := 20, blockSize := 64 } ∧
    Constructs AllHist tigerNew2_160 { H := fun m => (Spec.Tiger.hash Tiger.boxes 0x80#8 m).take 20, size := 20, blockSize := 64 } ∧
    Constructs AllHist tigerNew128 { H := fun m => (Spec.Tiger.hash Tiger.boxes 0x01#8 m).take 16, size := 16, blockSize := 64 } ∧
    Constructs AllHist tigerNew2_128 { H := fun m => (Spec.Tiger.hash Tiger.boxes 0x80#8 m).take 16, size := 16, blockSize := 64 } := by
  refine ⟨⟨_, rfl, fun ops _ => C08_tiger_refines 24 (by decide) ops⟩, ⟨_, rfl, fun ops _ => C08_tiger2_refines 24 (by decide) ops⟩, ⟨_, rfl, fun ops _ => C08_tiger_refines 20 (by decide) ops⟩, ⟨_, rfl, fun ops _ => C08_tiger2_refines 20 (by decide) ops⟩, ⟨_, rfl, fun ops _ => C08_tiger_refines 16 (by decide) ops⟩, ⟨_, rfl, fun ops _ => C08_tiger2_refines 16 (by decide) ops⟩⟩

/-- MD6 of the size named, unkeyed, 40 + d/4 rounds, 64 levels, for messages below 512 bytes (longer ones: `C30_md6_violated`); the keyed form with at
least 80 rounds and the first 64 bytes of the key. -/
theorem C138_md6_partial :
    Constructs (Fits 512) md6New224 { H := Spec.MD6.short { d := 224, key := [], r := 96, L := 64 }, size := 28, blockSize := 512 } ∧
    Constructs (Fits 512) md6New256 { H := Spec.MD6.short { d := 256, key := [], r := 104, L := 64 }, size := 32, blockSize := 512 } ∧
    Constructs (Fits 512) md6New384 { H := Spec.MD6.short { d := 384, key := [], r := 136, L := 64 }, size := 48, blockSize := 512 } ∧
    Constructs (Fits 512) md6New512 { H := Spec.MD6.short { d := 512, key := [], r := 168, L := 64 }, size := 64, blockSize := 512 } ∧
    ∀ (size : Nat) (key : Bytes), size ≤ 1024 → key ≠ [] → Constructs (Fits 512) (md6NewWithKey size key)
      { H := Spec.MD6.short { d := size, key := key.take 64, r := max 80 (40 + size / 4), L := 64 }, size := size / 8, blockSize := 512 } := by
  have H : ∀ (size : Nat) (key : Bytes), size ≤ 1024 → Constructs (Fits 512) (some ⟨_, MD6.impl, MD6.newDigest size key 64⟩)
      { H := Spec.MD6.short (md6Par size key 64), size := size / 8, blockSize := 512 } := by
    intro size key hs
    refine ⟨_, rfl, fun ops h => ?_⟩
    rw [C30_md6_function size key 64 hs ops fun k => Nat.lt_trans (h k) (by decide)]
    exact spec_run_congr (S := { H := Spec.MD6.chain (md6Par size key 64), size := size / 8, blockSize := 512 })
      (S' := { H := Spec.MD6.short (md6Par size key 64), size := size / 8, blockSize := 512 }) (fun m hm => C30_md6_short_partial size key 64 (by decide) m hm) rfl rfl ops [] h
  refine ⟨H 224 [] (by decide), H 256 [] (by decide), H 384 [] (by decide), H 512 [] (by decide), fun size key hs hk => ?_⟩
  have := H size key hs
  unfold md6Par at this
  rw [if_pos hk] at this
  exact this

/-- SipHash-2-4, 128 bits unless New64 or size 8, for 16-byte keys, as long as Reset is not called (`C11_siphash_reset_violated`); with any other key
the object returned is nil. -/
theorem C138_siphash_partial (k : Bytes) :
    (k.length = 16 →
      Constructs NoReset (siphashNew k) { H := Spec.SipHash.siphash 2 4 true k, size := 16, blockSize := 8 } ∧
      Constructs NoReset (siphashNew64 k) { H := Spec.SipHash.siphash 2 4 false k, size := 8, blockSize := 8 } ∧
      Constructs NoReset (siphashNew128 k) { H := Spec.SipHash.siphash 2 4 true k, size := 16, blockSize := 8 } ∧
      (∀ n : Int, Constructs NoReset (siphashNewWithHashSize k n) { H := Spec.SipHash.siphash 2 4 (n != 8) k, size := if n = 8 then 8 else 16, blockSize := 8 })) ∧
    (k.length ≠ 16 → ConstructsNil (siphashNew k) ∧ ConstructsNil (siphashNew64 k) ∧ ConstructsNil (siphashNew128 k) ∧ ∀ n, ConstructsNil (siphashNewWithHashSize k n)) := by
  refine ⟨fun hk => ?_, fun hk => ?_⟩
  · have H : ∀ n : Int, Constructs NoReset (dropError (SipHash.impl 0 0 n) (SipHash.new k n))
        { H := Spec.SipHash.siphash 2 4 (n != 8) k, size := if n = 8 then 8 else 16, blockSize := 8 } := by
      intro n
      cases e : SipHash.new k n with
      | none => exact absurd hk ((C11_siphash_new k n).1 e)
      | some o => exact constructs_on ⟨o, rfl, C11_siphash_partial 0 0 n k o e⟩ rfl
    exact ⟨H 0, H 8, H 16, H⟩
  · have H : ∀ n : Int, dropError (SipHash.impl 0 0 n) (SipHash.new k n) = none := by
      intro n
      rw [(C11_siphash_new k n).2 hk]
      rfl
    exact ⟨H 0, H 8, H 16, H⟩

/-- Chaskey with 8 and with 12 rounds, for the histories in which package chaskey is right (`C16_chaskey_split_violated`); other keys are refused. -/
theorem C138_chaskey_partial (k : Bytes) :
    (k.length = 16 →
      Constructs (Calm 0) (chaskeyNew k) { H := Spec.Chaskey.mac 8 k, size := 16, blockSize := 16 } ∧
      Constructs (Calm 0) (chaskeyNew12 k) { H := Spec.Chaskey.mac 12 k, size := 16, blockSize := 16 }) ∧
    (k.length ≠ 16 → ConstructsNil (chaskeyNew k) ∧ ConstructsNil (chaskeyNew12 k)) := by
  refine ⟨fun hk => ?_, fun hk => ?_⟩
  · have H : ∀ r : Nat, Constructs (Calm 0) (dropError Chaskey.impl (Chaskey.new k r)) { H := Spec.Chaskey.mac r k, size := 16, blockSize := 16 } := by
      intro r
      cases e : Chaskey.new k r with
      | none => exact absurd hk ((C16_chaskey_new k r).1 e)
      | some o => exact constructs_on ⟨o, rfl, C16_chaskey_partial r k o e⟩ rfl
    exact ⟨H 8, H 12⟩
  · have H : ∀ r : Nat, dropError Chaskey.impl (Chaskey.new k r) = none := by
      intro r
      rw [(C16_chaskey_new k r).2 hk]
      rfl
    exact ⟨H 8, H 12⟩

/-- For writes below 2^29 - 256 bytes each (`C56_fsb_write_violated`). -/
theorem C138_fsb_partial (pi : Nat → Byte) :
    Constructs FSBWrites (fsbNew160 pi) { H := Spec.FSB.hash pi Spec.FSB.fsb160, size := 20, blockSize := Spec.FSB.inputBits Spec.FSB.fsb160 / 8 } ∧
    Constructs FSBWrites (fsbNew224 pi) { H := Spec.FSB.hash pi Spec.FSB.fsb224, size := 28, blockSize := Spec.FSB.inputBits Spec.FSB.fsb224 / 8 } ∧
    Constructs FSBWrites (fsbNew256 pi) { H := Spec.FSB.hash pi Spec.FSB.fsb256, size := 32, blockSize := Spec.FSB.inputBits Spec.FSB.fsb256 / 8 } ∧
    Constructs FSBWrites (fsbNew384 pi) { H := Spec.FSB.hash pi Spec.FSB.fsb384, size := 48, blockSize := Spec.FSB.inputBits Spec.FSB.fsb384 / 8 } ∧
    Constructs FSBWrites (fsbNew512 pi) { H := Spec.FSB.hash pi Spec.FSB.fsb512, size := 64, blockSize := Spec.FSB.inputBits Spec.FSB.fsb512 / 8 } := by
  have H : ∀ (n : Int) (P : Spec.FSB.Params), (FSB.new n).map FSB.Cfg.spec = some P →
      Constructs FSBWrites ((FSB.new n).map fun c => ⟨_, FSB.impl pi c, FSB.reset c⟩)
        { H := Spec.FSB.hash pi P, size := P.hashbits / 8, blockSize := Spec.FSB.inputBits P / 8 } := by
    intro n P h
    cases e : FSB.new n with
    | none => rw [e] at h; cases h
    | some c =>
      rw [e, Option.map_some, Option.some.injEq] at h
      subst h
      exact ⟨_, rfl, C56_fsb_contract_partial pi n c e⟩
  refine ⟨H 160 Spec.FSB.fsb160 (C56_fsb_new 160), H 224 Spec.FSB.fsb224 (C56_fsb_new 224), H 256 Spec.FSB.fsb256 (C56_fsb_new 256), H 384 Spec.FSB.fsb384 (C56_fsb_new 384), H 512 Spec.FSB.fsb512 (C56_fsb_new 512)⟩

/-- For messages below 2^64 bytes. -/
theorem C138_skein512 :
    Constructs (Fits (2 ^ 64)) skein512NewHash224 { H := Spec.Skein.skein 8 28 none [], size := 28, blockSize := 64 } ∧
    Constructs (Fits (2 ^ 64)) skein512NewHash256 { H := Spec.Skein.skein 8 32 none [], size := 32, blockSize := 64 } ∧
    Constructs (Fits (2 ^ 64)) skein512NewHash384 { H := Spec.Skein.skein 8 48 none [], size := 48, blockSize := 64 } ∧
    Constructs (Fits (2 ^ 64)) skein512NewHash512 { H := Spec.Skein.skein 8 64 none [], size := 64, blockSize := 64 } := by
  have H : ∀ n : U64, Constructs (Fits (2 ^ 64)) (some ⟨_, Skein512.impl, Skein512.new n {}⟩) (skeinSpec 8 n.toNat none []) := by
    intro n
    refine ⟨_, rfl, C39_skein512 n {} ?_ rfl⟩
    intro v h
    simp at h
  refine ⟨H 28, H 32, H 48, H 64⟩

/-! Non-vacuity of the restricted kinds of history. -/
example : Fits 512 [.write [1, 2], .sum [], .reset, .write [3], .size] := by
  intro k
  rcases k with _ | _ | _ | _ | _ | k <;> simp [msgAfter]
example : NoReset [.write [1, 2], .sum [], .write [3], .sum [7]] := by simp [NoReset]
example : Calm 0 [.write [1, 2], .sum []] := Or.inl ⟨rfl, trivial⟩
example : FSBWrites [.write [1, 2], .sum []] := by intro p hp; simp at hp; subst hp; decide
end Verif.Props
