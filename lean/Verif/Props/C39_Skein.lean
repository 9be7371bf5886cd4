import Verif.Lemmas.Skein
import Verif.Props.C40_Threefish
/-
C39: package skein and its siblings skein/skein256, skein/skein1024.
-/
namespace Verif.Props
open Verif.Threefish

/-- Skein with `n`-word blocks and `size` bytes of output. -/
def skeinSpec (n size : Nat) (key : Option Bytes) (args : List (Nat × Bytes)) : HashSpec :=
  { H := Spec.Skein.skein n size key args, size := size, blockSize := 8 * n }

/-- The histories for which the objects of package skein are right: at every `Sum` there has been a
`Write` since the last `Reset` (possibly of no bytes), and the message is below 2^64 bytes. -/
def Written (ps : List Bytes) : Prop := ps ≠ [] ∧ ps.flatten.length < 2 ^ 64

theorem skein_refinesOn {k : Code} (h : k.Std) (s0 : Skein.HashFunc) (G : List U64) (size : Nat) (H : Bytes → Bytes)
    (hz : s0.hashsize = size) (hcpy : s0.hValCpy = G) (hG : G.length = k.n) (h0 : s0 = Skein.reset k s0)
    (hH : ∀ m, H m = Spec.Skein.output k.n (Spec.Skein.ubi k.n G m 48) size) :
    RefinesOn (SumsOn Written []) (Skein.impl k) s0 { H := H, size := size, blockSize := 8 * k.n } := by
  have hn : 0 < k.n := by have := h.n2; omega
  have hinit : Skein.Repr k ⟨G, 0#64, Skein.T1 48 true false⟩ s0 [] := by
    rw [h0, ← hcpy]; exact Skein.reset_repr k hn s0
  refine refinesOn_sums_of_sim _ _ _ _
    (fun s ps => s.hashsize = size ∧ s.hValCpy = G ∧ (ps ≠ [] → s.hasMsg = true) ∧
      Skein.Repr k ⟨G, 0#64, Skein.T1 48 true false⟩ s ps.flatten) ⟨hz, hcpy, fun hh => absurd rfl hh, hinit⟩ ?_ ?_ ?_ ?_ ?_
  · rintro s ps p ⟨a, b, c, d⟩
    obtain ⟨w1, w2, w3⟩ := Skein.write_fields k s p
    refine ⟨_, rfl, w2.trans a, w3.trans b, fun _ => w1, ?_⟩
    rw [List.flatten_append, List.flatten_cons, List.flatten_nil, List.append_nil]
    exact Skein.write_repr k hn d p
  · rintro s ps b ⟨a, b', c, d⟩ ⟨hne, hl⟩
    refine ⟨s, ?_, a, b', c, d⟩
    show some (s, b ++ Skein.checkSum k s) = some (s, b ++ H ps.flatten)
    rw [Skein.checkSum_msg h hG d (c hne) hl, hH, a]
  · rintro s ps ⟨a, b, -, -⟩
    refine ⟨a, b, fun hh => absurd rfl hh, ?_⟩
    have := Skein.reset_repr k hn s
    rw [b] at this
    exact this
  · rintro s ps ⟨a, -⟩; exact a
  · intros; rfl

/-- The three packages, for every output size and configuration. -/
theorem C39_skein_partial (k : Code) (hk : k = code256 ∨ k = code512 ∨ k = code1024) (size : Nat) (conf : Skein.Config)
    (hc : conf.Fits) (s0 : Skein.HashFunc) (hs : Skein.new k size conf = some s0) :
    RefinesOn (SumsOn Written []) (Skein.impl k) s0 (skeinSpec k.n size (Skein.confKey conf) (Skein.confArgs conf)) := by
  have h : k.Std := by
    rcases hk with rfl | rfl | rfl
    · exact code256_std
    · exact code512_std
    · exact code1024_std
  unfold Skein.new at hs
  split at hs
  · cases hs
  cases hs
  obtain ⟨h1, h2, h3, h4⟩ := Skein.initialise_spec h size conf hc
  exact skein_refinesOn h _ _ _ _ h1 h2 h4 h3 (fun m => rfl)

/-! ### Evaluation (for the precomputed constants, the violation and the tests) -/

/-- A block step computed on lists. -/
def ubiBlockL (k : Code) (G : List U64) (t : Nat) (b : Bytes) : List U64 :=
  let m := bytesToBlock k.n b
  let t0 := BitVec.ofNat 64 t
  let t1 := BitVec.ofNat 64 (t / 2 ^ 64)
  List.zipWith (· ^^^ ·) (encryptL k m (G ++ [G.foldl (· ^^^ ·) C240]) [t0, t1, t0 ^^^ t1]) m

theorem ubiBlockL_eq {k : Code} (h : k.Std) (hw : (k.encA ++ k.encB ++ k.encFin).all (Instr.within k.n) = true)
    (G : List U64) (hG : G.length = k.n) (t : Nat) (b : Bytes) : Spec.Skein.ubiBlock k.n G t b = ubiBlockL k G t b := by
  unfold Spec.Skein.ubiBlock ubiBlockL
  simp only
  rw [← encryptL_eq _ _ _ _ (bytesToBlock_length _ _) hw, encryptWords_spec h _ _ _ _ hG]
  rfl

theorem within512 : (code512.encA ++ code512.encB ++ code512.encFin).all (Instr.within code512.n) = true := by decide +kernel
theorem within256 : (code256.encA ++ code256.encB ++ code256.encFin).all (Instr.within code256.n) = true := by decide +kernel
theorem within1024 : (code1024.encA ++ code1024.encB ++ code1024.encFin).all (Instr.within code1024.n) = true := by decide +kernel

/-- UBI of at most one block of Skein-512, on lists. -/
theorem ubi8 (G : List U64) (hG : G.length = 8) (M : Bytes) (ty : Nat) (h : M.length ≤ 64) :
    Spec.Skein.ubi 8 G M ty = ubiBlockL code512 G (Spec.Skein.tweak M.length ty true true) (M ++ zeros (64 - M.length)) := by
  rw [Skein.ubi_short 8 (by decide) G M ty h]
  exact ubiBlockL_eq code512_std within512 G hG _ _

/-- The configuration stage of unkeyed Skein-512, on lists. -/
theorem init8 (size : Nat) : Spec.Skein.init 8 size none [] =
    ubiBlockL code512 (List.replicate 8 0#64) (Spec.Skein.tweak 32 4 true true) (Spec.Skein.config size ++ zeros 32) := by
  have h32 : (Spec.Skein.config size).length = 32 := by simp [Spec.Skein.config, le64, zeros]
  show Spec.Skein.ubi 8 (List.replicate 8 0#64) (Spec.Skein.config size) 4 = _
  rw [ubi8 _ rfl _ _ (by omega), h32]

set_option maxRecDepth 100000 in
theorem iv160_eq : Spec.Skein.init 8 20 none [] = Skein.iv160 := by rw [init8]; decide +kernel
set_option maxRecDepth 100000 in
theorem iv256_eq : Spec.Skein.init 8 32 none [] = Skein.iv256 := by rw [init8]; decide +kernel
set_option maxRecDepth 100000 in
theorem iv384_eq : Spec.Skein.init 8 48 none [] = Skein.iv384 := by rw [init8]; decide +kernel
set_option maxRecDepth 100000 in
theorem iv512_eq : Spec.Skein.init 8 64 none [] = Skein.iv512 := by rw [init8]; decide +kernel

/-- An optional key as the constructors take it: no bytes means no key. -/
def optKey (key : Bytes) : Option Bytes := if 0 < key.length then some key else none

theorem ofIV_refines (iv : List U64) (hl : iv.length = 8) (size : Nat) (hiv : Spec.Skein.init 8 size none [] = iv) :
    RefinesOn (SumsOn Written []) (Skein.impl code512) (Skein.ofIV code512 iv size) (skeinSpec 8 size none []) := by
  refine skein_refinesOn code512_std _ iv size _ rfl rfl hl rfl (fun m => ?_)
  show Spec.Skein.skein 8 size none [] m = _
  unfold Spec.Skein.skein
  rw [hiv]
  rfl

theorem keyed_refines (key : Bytes) (hk : 0 < key.length) (hl : key.length < 2 ^ 64) (size : Nat) :
    RefinesOn (SumsOn Written []) (Skein.impl code512) (Skein.initialise code512 size { key := key }) (skeinSpec 8 size (some key) []) := by
  obtain ⟨h1, h2, h3, h4⟩ := Skein.initialise_spec code512_std size { key := key }
    ⟨hl, by simp, by simp, by simp, by simp⟩
  have e : Skein.confKey { key := key } = some key := if_pos hk
  rw [e] at h2 h4
  exact skein_refinesOn code512_std _ _ size _ h1 h2 h4 h3 (fun m => rfl)

/-- `New512(key)` and `New256(key)`. -/
theorem C39_skein_new512_partial (key : Bytes) (hl : key.length < 2 ^ 64) :
    RefinesOn (SumsOn Written []) (Skein.impl code512) (Skein.new512 key) (skeinSpec 8 64 (optKey key) []) ∧
    RefinesOn (SumsOn Written []) (Skein.impl code512) (Skein.new256 key) (skeinSpec 8 32 (optKey key) []) := by
  unfold Skein.new512 Skein.new256 optKey
  by_cases h0 : 0 < key.length
  · rw [if_pos h0, if_pos h0, if_pos h0]
    exact ⟨keyed_refines key h0 hl 64, keyed_refines key h0 hl 32⟩
  · rw [if_neg h0, if_neg h0, if_neg h0]
    exact ⟨ofIV_refines _ rfl _ iv512_eq, ofIV_refines _ rfl _ iv256_eq⟩

theorem sumFunc_spec (iv : List U64) (hl : iv.length = 8) (size : Nat) (hsz : 0 < size ∧ size ≤ 64) (hiv : Spec.Skein.init 8 size none [] = iv)
    (msg key : Bytes) (hm : msg.length < 2 ^ 64) (hk : key.length < 2 ^ 64) :
    Skein.sumFunc iv size msg key = Spec.Skein.skein 8 size (optKey key) [] msg := by
  have fin : ∀ (s : Skein.HashFunc) (G : List U64), s = Skein.reset code512 s → s.hValCpy = G → G.length = 8 →
      (Skein.output code512 (Skein.finalizeHash code512 (Skein.write code512 s msg)) 0).take size =
        Spec.Skein.output 8 (Spec.Skein.ubi 8 G msg 48) size := by
    intro s G h0 hcpy hG
    have hr : Skein.Repr code512 ⟨G, 0#64, Skein.T1 48 true false⟩ s [] := by
      rw [h0, ← hcpy]; exact Skein.reset_repr code512 (by decide) s
    have hw := Skein.write_repr code512 (by decide) hr msg
    obtain ⟨f1, -⟩ := Skein.finalizeHash_eq code512 hw
    have hv : (Skein.finalizeHash code512 (Skein.write code512 s msg)).c.hVal = Spec.Skein.ubi 8 G msg 48 := by
      rw [f1]; exact Skein.finish_spec code512_std G hG msg 48 (by decide) hm
    rw [Skein.output_spec code512_std _ (by rw [hv]; exact Skein.ubi_length 8 (by decide) _ _ _), hv]
    unfold Spec.Skein.output
    have e : (size + 8 * 8 - 1) / (8 * 8) = 1 := Nat.div_eq_of_lt_le (by omega) (by omega)
    rw [e]
    simp only [List.range_one, List.flatMap_cons, List.flatMap_nil, List.append_nil]
    rfl
  unfold Skein.sumFunc Spec.Skein.skein optKey
  by_cases h0 : 0 < key.length
  · rw [if_pos h0, if_pos h0]
    obtain ⟨h1, h2, h3, h4⟩ := Skein.initialise_spec code512_std size { key := key } ⟨hk, by simp, by simp, by simp, by simp⟩
    have e : Skein.confKey { key := key } = some key := if_pos h0
    rw [e] at h2 h4
    exact fin _ _ h3 h2 h4
  · rw [if_neg h0, if_neg h0, hiv]
    exact fin _ _ rfl rfl hl

/-- The one-shot functions `Sum512`, `Sum384`, `Sum256`, `Sum160` of package skein are Skein-512. -/
theorem C39_skein_oneshot (msg key : Bytes) (hm : msg.length < 2 ^ 64) (hk : key.length < 2 ^ 64) :
    Skein.sumFunc Skein.iv512 64 msg key = Spec.Skein.skein 8 64 (optKey key) [] msg ∧
    Skein.sumFunc Skein.iv384 48 msg key = Spec.Skein.skein 8 48 (optKey key) [] msg ∧
    Skein.sumFunc Skein.iv256 32 msg key = Spec.Skein.skein 8 32 (optKey key) [] msg ∧
    Skein.sumFunc Skein.iv160 20 msg key = Spec.Skein.skein 8 20 (optKey key) [] msg :=
  ⟨sumFunc_spec _ rfl 64 (by decide) iv512_eq msg key hm hk, sumFunc_spec _ rfl 48 (by decide) iv384_eq msg key hm hk,
   sumFunc_spec _ rfl 32 (by decide) iv256_eq msg key hm hk, sumFunc_spec _ rfl 20 (by decide) iv160_eq msg key hm hk⟩

/-- One output block of Skein-512, on lists. -/
theorem output8 (G : List U64) (hG : G.length = 8) (size : Nat) (hsz : 0 < size ∧ size ≤ 64) : Spec.Skein.output 8 G size =
    ((ubiBlockL code512 G (Spec.Skein.tweak 8 63 true true) (zeros 64)).flatMap le64).take size := by
  unfold Spec.Skein.output
  have e : (size + 8 * 8 - 1) / (8 * 8) = 1 := Nat.div_eq_of_lt_le (by omega) (by omega)
  rw [e]
  simp only [List.range_one, List.flatMap_cons, List.flatMap_nil, List.append_nil]
  rw [ubi8 G hG _ _ (by simp [le64])]
  rfl

/-- The digest of a message of at most one block, on lists. -/
theorem skein8_short (size : Nat) (hsz : 0 < size ∧ size ≤ 64) (iv : List U64) (hl : iv.length = 8)
    (hiv : Spec.Skein.init 8 size none [] = iv) (m : Bytes) (hm : m.length ≤ 64) : Spec.Skein.skein 8 size none [] m =
    ((ubiBlockL code512 (ubiBlockL code512 iv (Spec.Skein.tweak m.length 48 true true) (m ++ zeros (64 - m.length)))
      (Spec.Skein.tweak 8 63 true true) (zeros 64)).flatMap le64).take size := by
  unfold Spec.Skein.skein
  rw [hiv, output8 _ (Skein.ubi_length 8 (by decide) _ _ _) _ hsz, ubi8 iv hl m 48 hm]

/-! Test: Skein-512-512 of the empty message, as published. -/
set_option maxRecDepth 100000 in
example : Spec.Skein.skein 8 64 none [] [] = hex ("bc5b4c50925519c290cc634277ae3d6257212395cba733bbad37a4af0fa06af4" ++
    "1fca7903d06564fea7a2d3730dbdb80c1f85562dfcc070334ea4d1d9e72cba7a") := by
  rw [skein8_short 64 (by decide) _ rfl iv512_eq [] (by simp)]
  decide +kernel

/-- The contract fails without a `Write`: `Sum` right after `New512(nil)` is not the hash of the
empty message (nor what `Write(nil); Sum` returns). -/
theorem C39_skein_sum_without_write_violated :
    (Skein.impl code512).run (Skein.new512 []) [.sum []] ≠ (skeinSpec 8 64 none []).run [] [.sum []] := by
  have h1 : (Skein.impl code512).run (Skein.new512 []) [.sum []] = [.bytes (Skein.checkSum code512 (Skein.new512 []))] := rfl
  have h2 : (skeinSpec 8 64 none []).run [] [.sum []] = [.bytes (Spec.Skein.skein 8 64 none [] [])] := by
    simp [HashSpec.run, skeinSpec]
  have h3 : Skein.checkSum code512 (Skein.new512 []) = Spec.Skein.output 8 Skein.iv512 64 :=
    Skein.checkSum_noMsg code512_std (s := Skein.new512 []) rfl rfl
  rw [h1, h2, h3, skein8_short 64 (by decide) _ rfl iv512_eq [] (by simp), output8 _ rfl 64 (by decide)]
  intro h
  have h4 := (List.cons.inj h).1
  rw [Out.bytes.injEq] at h4
  revert h4
  set_option maxRecDepth 100000 in
  decide +kernel

-- the hypotheses can be met: a keyed object, a write, a reset, a write of nothing
example : SumsOn Written [] [.write [1], .sum [], .write [2], .reset, .write [], .sum [7]] := by
  simp [SumsOn, Written]

end Verif.Props
