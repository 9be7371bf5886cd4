import Verif.Lemmas.Chaskey
/-
C16: chaskey.New (8 rounds) and chaskey.New12.
-/
namespace Verif.Props
open Chaskey (impl new)

/-- The contract: Chaskey with `r` rounds of the bytes written, under the object's key. -/
def chaskeySpec (r : Nat) (key : Bytes) : HashSpec :=
  { H := Spec.Chaskey.mac r key, size := 16, blockSize := 16 }

/-- Histories without a `Write` or a `Reset`. -/
def Quiet : List Op → Prop
  | [] => True
  | .write _ :: _ => False
  | .reset :: _ => False
  | _ :: ops => Quiet ops

/-- Histories on which the package is right (`n` bytes written so far): no `Reset`, and either
writes that together stay below 16 bytes, or one `Write` of any length as the only non-empty one. -/
def Calm : Nat → List Op → Prop
  | _, [] => True
  | n, .write p :: ops => (n = 0 ∧ Quiet ops) ∨ (n + p.length < 16 ∧ Calm (n + p.length) ops)
  | _, .reset :: _ => False
  | n, _ :: ops => Calm n ops

theorem chaskey_quiet {r : Nat} {key : Bytes} : ∀ (ops : List Op) (d : Chaskey.Digest) (m : Bytes), Quiet ops → Chaskey.Clean r key d m →
    impl.run d ops = (chaskeySpec r key).run m ops := by
  intro ops
  induction ops with
  | nil => intros; rfl
  | cons o ops ih =>
    intro d m hq hc
    cases o with
    | write p => exact hq.elim
    | reset => exact hq.elim
    | sum b =>
      simp only [HashImpl.run, HashSpec.run, impl, ih d m hq hc, Chaskey.checkSum_clean hc]
      rw [← ih d m hq hc]; rfl
    | size => simp only [HashImpl.run, HashSpec.run]; rw [ih d m hq hc]; rfl
    | blockSize => simp only [HashImpl.run, HashSpec.run]; rw [ih d m hq hc]; rfl

/-- The constructor fails exactly on keys that are not 16 bytes long. -/
theorem C16_chaskey_new (key : Bytes) (r : Nat) : new key r = none ↔ key.length ≠ 16 := by
  unfold new; split <;> simp_all

/-- Right for every message written in one piece, and for small pieces below one block.  Missing: all
other divisions into writes, and `Reset` (both are refuted below). -/
theorem C16_chaskey_partial (r : Nat) (key : Bytes) (d : Chaskey.Digest) (h : new key r = some d) :
    RefinesOn (Calm 0) impl d (chaskeySpec r key) := by
  suffices H : ∀ (ops : List Op) (d : Chaskey.Digest) (m : Bytes), Calm m.length ops → Chaskey.Clean r key d m →
      impl.run d ops = (chaskeySpec r key).run m ops from
    fun ops hops => H ops d [] hops (Chaskey.new_clean h)
  intro ops
  induction ops with
  | nil => intros; rfl
  | cons o ops ih =>
    intro d m hq hc
    cases o with
    | write p =>
      have e : impl.run d (.write p :: ops) = .wrote p.length :: impl.run (Chaskey.write d p) ops := rfl
      have e' : (chaskeySpec r key).run m (.write p :: ops) = .wrote p.length :: (chaskeySpec r key).run (m ++ p) ops := rfl
      rw [e, e']
      rcases hq with ⟨h0, hq⟩ | ⟨hl, hq⟩
      · have hm : m = [] := List.length_eq_zero_iff.mp h0
        subst hm
        rw [chaskey_quiet ops _ p hq (Chaskey.write_first hc p), List.nil_append]
      · rw [ih _ (m ++ p) (by rw [List.length_append]; exact hq) (Chaskey.write_small hc hl)]
    | reset => exact hq.elim
    | sum b =>
      have e : impl.run d (.sum b :: ops) = .bytes (b ++ Chaskey.checkSum d) :: impl.run d ops := rfl
      rw [e, ih d m hq hc, Chaskey.checkSum_clean hc]; rfl
    | size =>
      have e : impl.run d (.size :: ops) = .num 16 :: impl.run d ops := rfl
      rw [e, ih d m hq hc]; rfl
    | blockSize =>
      have e : impl.run d (.blockSize :: ops) = .num 16 :: impl.run d ops := rfl
      rw [e, ih d m hq hc]; rfl

/-- `New(key); Write(m); Sum(b)` for every key and message. -/
theorem C16_chaskey_oneshot (r : Nat) (key : Bytes) (d : Chaskey.Digest) (h : new key r = some d) (m b : Bytes) :
    impl.run d [.write m, .sum b] = [.wrote m.length, .bytes (b ++ Spec.Chaskey.mac r key m)] :=
  C16_chaskey_partial r key d h [.write m, .sum b] (Or.inl ⟨rfl, trivial⟩)

/-- Whatever was written, `Reset` forgets the key: the object computes Chaskey under the all-zero
key from then on (on the same histories), as if constructed with it. -/
theorem C16_chaskey_reset_zero_key (r : Nat) (d : Chaskey.Digest) (hd : d.r = r) :
    RefinesOn (Calm 0) impl (impl.reset d) (chaskeySpec r (zeros 16)) := by
  have hz : new (zeros 16) r = some { s := ⟨0, 0, 0, 0⟩, x := zeros 16, nx := 0, len := 0, k1 := ⟨0, 0, 0, 0⟩, k2 := ⟨0, 0, 0, 0⟩, r := r } := by
    unfold new
    rw [if_neg (by decide)]
    have h1 : Chaskey.words (zeros 16) = ⟨0, 0, 0, 0⟩ := by decide
    have h2 : Chaskey.timestwo ⟨0, 0, 0, 0⟩ = ⟨0, 0, 0, 0⟩ := by decide
    simp only [h1, h2]
  have := C16_chaskey_partial r (zeros 16) _ hz
  subst hd
  exact this

set_option maxRecDepth 100000 in
/-- Cutting a 16-byte message in two changes the tag. -/
theorem C16_chaskey_split_violated : ∃ d, new (zeros 16) 8 = some d ∧ ¬ Refines impl d (chaskeySpec 8 (zeros 16)) := by
  refine ⟨_, rfl, not_refines [.write (zeros 8), .write (zeros 8), .sum []] ?_⟩
  decide +kernel
set_option maxRecDepth 100000 in
/-- An empty `Write` after a complete block changes the tag. -/
theorem C16_chaskey_empty_write_violated : ∃ d, new (zeros 16) 8 = some d ∧
    impl.run d [.write (zeros 16), .write [], .sum []] ≠
      [.wrote 16, .wrote 0, .bytes (Spec.Chaskey.mac 8 (zeros 16) (zeros 16))] := by
  refine ⟨_, rfl, ?_⟩
  decide +kernel
set_option maxRecDepth 100000 in
/-- Stale buffer bytes enter the tag: 16 bytes and then one more. -/
theorem C16_chaskey_stale_violated : ∃ d, new (zeros 16) 8 = some d ∧
    impl.run d [.write (List.replicate 16 1#8), .write [1#8], .sum []] ≠
      (chaskeySpec 8 (zeros 16)).run [] [.write (List.replicate 16 1#8), .write [1#8], .sum []] := by
  refine ⟨_, rfl, ?_⟩
  decide +kernel
set_option maxRecDepth 100000 in
/-- `Reset` does not restore the keyed state. -/
theorem C16_chaskey_reset_violated : ∃ key d, new key 8 = some d ∧
    impl.run d [.reset, .sum []] ≠ (chaskeySpec 8 key).run [] [.reset, .sum []] := by
  refine ⟨List.replicate 16 1#8, _, rfl, ?_⟩
  decide +kernel

-- Tests (vectors of chaskey_test.go); they also meet the hypotheses of the theorems above.
set_option maxRecDepth 100000 in
example : (new (hex "33343d839f389f004fe6982339cf7a41") 8).map (fun d => (impl.run d [.write (hex ""), .sum []]).getLast?) =
    some (some (.bytes (hex "e58f2e79aa87ce75b550142d0b979111"))) := by decide +kernel
set_option maxRecDepth 100000 in
example : (new (hex "33343d839f389f004fe6982339cf7a41") 8).map (fun d => (impl.run d [.write (hex "0001020304"), .sum []]).getLast?) =
    some (some (.bytes (hex "0c3d98bc6440b131a2d74c23f9bb920c"))) := by decide +kernel
set_option maxRecDepth 100000 in
example : (new (hex "33343d839f389f004fe6982339cf7a41") 8).map (fun d => (impl.run d [.write (hex "000102030405060708090a0b0c0d0e0f"), .sum []]).getLast?) =
    some (some (.bytes (hex "a91c2779711c6ad64e47ca81ad1c8349"))) := by decide +kernel
set_option maxRecDepth 100000 in
example : (new (hex "33343d839f389f004fe6982339cf7a41") 8).map (fun d => (impl.run d [.write (hex "000102030405060708090a0b0c0d0e0f101112131415161718191a1b1c1d1e1f20"), .sum []]).getLast?) =
    some (some (.bytes (hex "33ea44df98c3b2b06fce83053e826d84"))) := by decide +kernel
set_option maxRecDepth 100000 in
example : (new (hex "33343d839f389f004fe6982339cf7a41") 12).map (fun d => (impl.run d [.write (hex ""), .sum []]).getLast?) =
    some (some (.bytes (hex "411fcb43c2a0eb51c38a0aff42f6e37e"))) := by decide +kernel
set_option maxRecDepth 100000 in
example : (new (hex "33343d839f389f004fe6982339cf7a41") 12).map (fun d => (impl.run d [.write (hex "0001020304"), .sum []]).getLast?) =
    some (some (.bytes (hex "b992fa394f5e651b67464a5e6533e10f"))) := by decide +kernel
set_option maxRecDepth 100000 in
example : (new (hex "33343d839f389f004fe6982339cf7a41") 12).map (fun d => (impl.run d [.write (hex "000102030405060708090a0b0c0d0e0f"), .sum []]).getLast?) =
    some (some (.bytes (hex "a9e2d05d8cac5efb2e393a63f3360c50"))) := by decide +kernel
set_option maxRecDepth 100000 in
example : (new (hex "33343d839f389f004fe6982339cf7a41") 12).map (fun d => (impl.run d [.write (hex "000102030405060708090a0b0c0d0e0f101112131415161718191a1b1c1d1e1f20"), .sum []]).getLast?) =
    some (some (.bytes (hex "67b84bd73afb0d2ccde997b6daed5856"))) := by decide +kernel

end Verif.Props
