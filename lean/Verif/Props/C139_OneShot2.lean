import Verif.Model.OneShot2
import Verif.Props.C126_OneShot
import Verif.Props.C39_Skein
import Verif.Props.C46_Shavite
import Verif.Props.C47_Bash
import Verif.Props.C12_XXHash
/-
C139: one-shot functions of skein256, skein1024, shavite, bash and xxhash, and the general Sum of the skein packages.
-/
namespace Verif.Props
open Verif.OneShot Verif.Threefish

theorem skeinStart_output {k : Code} (h : k.Std) (size : Nat) (msg key : Bytes) (hm : msg.length < 2 ^ 64) (hk : key.length < 2 ^ 64) (ctr : U64) :
    Skein.output k (skeinStart k size msg key) ctr =
      (Spec.Skein.ubi k.n (Spec.Skein.ubi k.n (Spec.Skein.init k.n size (optKey key) []) msg 48) (le64 ctr) 63).flatMap le64 := by
  have hn : 0 < k.n := by have := h.n2; omega
  obtain ⟨h1, h2, h3, h4⟩ := Skein.initialise_spec h size { key := key } ⟨hk, by simp, by simp, by simp, by simp⟩
  have e : Skein.confKey { key := key } = optKey key := rfl
  have e' : Skein.confArgs { key := key } = [] := rfl
  rw [e, e'] at h2 h4
  unfold skeinStart
  generalize Skein.initialise k size { key := key } = s at *
  have hr : Skein.Repr k ⟨Spec.Skein.init k.n size (optKey key) [], 0#64, Skein.T1 48 true false⟩ s [] := by
    rw [h3, ← h2]; exact Skein.reset_repr k hn s
  have hw := Skein.write_repr k hn hr msg
  obtain ⟨f1, -⟩ := Skein.finalizeHash_eq k hw
  have hv : (Skein.finalizeHash k (Skein.write k s msg)).c.hVal = Spec.Skein.ubi k.n (Spec.Skein.init k.n size (optKey key) []) msg 48 := by
    rw [f1]; exact Skein.finish_spec h _ h4 msg 48 (by decide) hm
  rw [Skein.output_spec h _ (by rw [hv]; exact Skein.ubi_length k.n hn _ _ _), hv]

theorem skein_block_length (n : Nat) (hn : 0 < n) (G : List U64) (M : Bytes) (ty : Nat) :
    ((Spec.Skein.ubi n G M ty).flatMap le64).length = 8 * n := by
  rw [DigestLen.flatMap_len le64 8 (fun b => by simp [le64]), Skein.ubi_length n hn]

theorem skein_output_one (n size : Nat) (h0 : 0 < size) (hs : size ≤ 8 * n) (G : List U64) :
    Spec.Skein.output n G size = ((Spec.Skein.ubi n G (le64 0) 63).flatMap le64).take size := by
  unfold Spec.Skein.output
  have e : (size + 8 * n - 1) / (8 * n) = 1 := Nat.div_eq_of_lt_le (by omega) (by omega)
  rw [e]
  simp only [List.range_one, List.flatMap_cons, List.flatMap_nil, List.append_nil]
  rfl

theorem skein_output_two (n size : Nat) (hn : 0 < n) (h0 : 8 * n < size) (hs : size ≤ 2 * (8 * n)) (G : List U64) :
    Spec.Skein.output n G size = (Spec.Skein.ubi n G (le64 0) 63).flatMap le64 ++ ((Spec.Skein.ubi n G (le64 1) 63).flatMap le64).take (size - 8 * n) := by
  unfold Spec.Skein.output
  have e : (size + 8 * n - 1) / (8 * n) = 2 := Nat.div_eq_of_lt_le (by omega) (by omega)
  rw [e, show List.range 2 = [0, 1] from rfl]
  simp only [List.flatMap_cons, List.flatMap_nil, List.append_nil]
  rw [List.take_append, skein_block_length n hn, List.take_of_length_le (by rw [skein_block_length n hn]; omega)]
  rfl

theorem goCopy_two (n m : Nat) (a b : Bytes) (ha : a.length = n) (hb : b.length = m) : goCopy (goCopy (zeros (n + m)) 0 a) n b = a ++ b := by
  subst ha hb
  simp only [goCopy, zeros]
  simp
  rw [List.take_of_length_le (by omega), List.drop_of_length_le (by rw [List.length_append, List.length_replicate]), List.append_nil]

/-- Sum512, Sum384, Sum256 and Sum160 of skein256 are Skein-256 with that much output, with an optional key. -/
theorem C139_skein256 (msg key : Bytes) (hm : msg.length < 2 ^ 64) (hk : key.length < 2 ^ 64) :
    skein256Sum512 msg key = Spec.Skein.skein 4 64 (optKey key) [] msg ∧ skein256Sum384 msg key = Spec.Skein.skein 4 48 (optKey key) [] msg ∧
    skein256Sum256 msg key = Spec.Skein.skein 4 32 (optKey key) [] msg ∧ skein256Sum160 msg key = Spec.Skein.skein 4 20 (optKey key) [] msg := by
  have hO := fun size ctr => skeinStart_output code256_std size msg key hm hk ctr
  have hn : code256.n = 4 := rfl
  rw [hn] at hO
  have hl := fun G c => skein_block_length 4 (by decide) G (le64 c) 63
  refine ⟨?_, ?_, ?_, ?_⟩
  · unfold skein256Sum512 Spec.Skein.skein
    dsimp only
    rw [hO, hO, skein_output_two 4 64 (by decide) (by decide) (by decide)]
    rw [goCopy_two 32 32 _ _ (hl _ _) (hl _ _), List.take_of_length_le (by rw [hl])]
  · unfold skein256Sum384 Spec.Skein.skein
    dsimp only
    rw [hO, hO, skein_output_two 4 48 (by decide) (by decide) (by decide)]
    rw [goCopy_two 32 16 _ _ (hl _ _) (by rw [List.length_take, hl]; rfl)]
  · unfold skein256Sum256 Spec.Skein.skein
    dsimp only
    rw [hO, skein_output_one 4 32 (by decide) (by decide), goCopy_exact 32 _ (hl _ _), List.take_of_length_le (by rw [hl])]
  · unfold skein256Sum160 Spec.Skein.skein
    dsimp only
    rw [hO, skein_output_one 4 20 (by decide) (by decide), goCopy_exact 20 _ (by rw [List.length_take, hl]; rfl)]

/-- The same for skein1024 and Skein-1024. -/
theorem C139_skein1024 (msg key : Bytes) (hm : msg.length < 2 ^ 64) (hk : key.length < 2 ^ 64) :
    skein1024Sum512 msg key = Spec.Skein.skein 16 64 (optKey key) [] msg ∧ skein1024Sum384 msg key = Spec.Skein.skein 16 48 (optKey key) [] msg ∧
    skein1024Sum256 msg key = Spec.Skein.skein 16 32 (optKey key) [] msg ∧ skein1024Sum160 msg key = Spec.Skein.skein 16 20 (optKey key) [] msg := by
  have hO := fun size ctr => skeinStart_output code1024_std size msg key hm hk ctr
  have hn : code1024.n = 16 := rfl
  rw [hn] at hO
  have hl := fun G c => skein_block_length 16 (by decide) G (le64 c) 63
  have one : ∀ size, 0 < size → size ≤ 128 → goCopy (zeros size) 0 ((Skein.output code1024 (skeinStart code1024 size msg key) 0).take size) =
      Spec.Skein.skein 16 size (optKey key) [] msg := by
    intro size h0 hs
    unfold Spec.Skein.skein
    rw [hO, skein_output_one 16 size h0 (by omega), goCopy_exact size _ (by rw [List.length_take, hl]; omega)]
  exact ⟨one 64 (by decide) (by decide), one 48 (by decide) (by decide), one 32 (by decide) (by decide), one 20 (by decide) (by decide)⟩

/-- The Sum of the three skein packages: Skein of the message under the configuration, for every size from 1 on; size 0 panics. -/
theorem C139_skein_sum (k : Code) (hk : k = code256 ∨ k = code512 ∨ k = code1024) (msg : Bytes) (hm : msg.length < 2 ^ 64) (size : Nat) (conf : Skein.Config)
    (hc : conf.Fits) : skeinSum k msg size conf =
      if size = 0 then none else some (Spec.Skein.skein k.n size (Skein.confKey conf) (Skein.confArgs conf) msg) := by
  unfold skeinSum
  by_cases h0 : size = 0
  · rw [if_pos h0]
    unfold Skein.new calls
    rw [if_pos (by omega)]
    rfl
  · rw [if_neg h0]
    have e : Skein.new k size conf = some (Skein.initialise k size conf) := by unfold Skein.new; rw [if_neg (by omega)]
    have h := C39_skein_partial k hk size conf hc _ e [.write msg, .sum []] (by simp [SumsOn, Written]; exact hm)
    exact calls_of (S := skeinSpec k.n size (Skein.confKey conf) (Skein.confArgs conf)) e h rfl

theorem shavite256_length (bits : Nat) (h : bits / 32 ≤ 8) (m : Bytes) : (Spec.Shavite.hash256 bits m).length = 4 * (bits / 32) := by
  have hc : ∀ a b c, (Spec.Shavite.compress256 a b c).length = 8 := fun a b c => by
    unfold Spec.Shavite.compress256 Spec.Shavite.toList
    rfl
  unfold Spec.Shavite.hash256
  rw [DigestLen.flatMap_len le32 4 (fun b => by simp [le32]), List.length_take]
  have : ∀ a b c d e, (Spec.Shavite.finish 64 8 a b Spec.Shavite.compress256 c d e).length = 8 := by
    intro a b c d e
    unfold Spec.Shavite.finish
    dsimp only
    split
    · exact hc _ _ _
    · split
      · exact hc _ _ _
      · exact hc _ _ _
  rw [this, Nat.min_eq_left h]

theorem shavite512_length (bits : Nat) (h : bits / 32 ≤ 16) (m : Bytes) : (Spec.Shavite.hash512 bits m).length = 4 * (bits / 32) := by
  have hc : ∀ a b c, (Spec.Shavite.compress512 a b c).length = 16 := fun a b c => by
    unfold Spec.Shavite.compress512 Spec.Shavite.toList
    rfl
  unfold Spec.Shavite.hash512
  rw [DigestLen.flatMap_len le32 4 (fun b => by simp [le32]), List.length_take]
  have : ∀ a b c d e, (Spec.Shavite.finish 128 16 a b Spec.Shavite.compress512 c d e).length = 16 := by
    intro a b c d e
    unfold Spec.Shavite.finish
    dsimp only
    split
    · exact hc _ _ _
    · split
      · exact hc _ _ _
      · exact hc _ _ _
  rw [this, Nat.min_eq_left h]

/-- The one-shot functions of package shavite, whose objects are wrong for divided messages (`C46_shavite_violated`), are SHAvite-3. -/
theorem C139_shavite (m : Bytes) (h : m.length < 2 ^ 64) :
    shaviteSum224 m = some (Spec.Shavite.hash256 224 m) ∧ shaviteSum256 m = some (Spec.Shavite.hash256 256 m) ∧
    shaviteSum384 m = some (Spec.Shavite.hash512 384 m) ∧ shaviteSum512 m = some (Spec.Shavite.hash512 512 m) := by
  have ok : ∀ B, ShaviteAligned B [.write m, .sum []] := fun B => ⟨⟨.inl (Nat.zero_mod _), by omega⟩, trivial, trivial⟩
  refine ⟨?_, ?_, ?_, ?_⟩
  · exact copy_of rfl (C46_shavite224_partial _ (ok _)) rfl (shavite256_length 224 (by decide) m)
  · exact copy_of rfl (C46_shavite256_partial _ (ok _)) rfl (shavite256_length 256 (by decide) m)
  · exact copy_of rfl (C46_shavite384_partial _ (ok _)) rfl (shavite512_length 384 (by decide) m)
  · exact copy_of rfl (C46_shavite512_partial _ (ok _)) rfl (shavite512_length 512 (by decide) m)

theorem bash_f_length (b : Bytes) : (Spec.Bash.f b).length = 192 := by
  unfold Spec.Bash.f
  rw [DigestLen.flatMap_len le64 8 (fun b => by simp [le64])]
  rw [DigestLen.foldl_len (fun S r => Spec.Bash.round r S) 24 _ (fun a _ s _ => by
    unfold Spec.Bash.round; dsimp only; rw [List.length_set, List.length_map, List.length_range]) _ (by rw [List.length_map, List.length_range])]

theorem bash_hash_length (hs : Nat) (h : hs ≤ 192) (m : Bytes) : (Spec.Bash.hash hs m).length = hs := by
  unfold Spec.Bash.hash
  dsimp only
  rw [List.length_take, DigestLen.foldl_len (Spec.Bash.absorbReplace (192 - 2 * hs)) 192 _ (fun a _ s _ => by
    unfold Spec.Bash.absorbReplace; exact bash_f_length _) _ (by unfold Spec.Bash.init; rw [List.length_append, zeros_length]; simp [le64])]
  omega

/-- The one-shot functions of package bash are STB 34.101.77 bash-hash for messages shorter than one block.  Missing: longer messages
(`C139_bash_violated`). -/
theorem C139_bash_partial (m : Bytes) :
    (m.length < 136 → bashSum224 m = some (Spec.Bash.hash 28 m)) ∧ (m.length < 128 → bashSum256 m = some (Spec.Bash.hash 32 m)) ∧
    (m.length < 96 → bashSum384 m = some (Spec.Bash.hash 48 m)) ∧ (m.length < 64 → bashSum512 m = some (Spec.Bash.hash 64 m)) := by
  have one : ∀ (hs : Nat), 4 ≤ hs → hs ≤ 64 → m.length < 192 - 2 * hs → sumSlice Bash.impl hs (Bash.newDigest (8 * hs : Nat)) m = some (Spec.Bash.hash hs m) := by
    intro hs h4 hh hm
    obtain ⟨d, hd, h⟩ := C47_bash_short_partial hs h4 hh
    exact slice_of hd (h _ (fits_one hm)) rfl (bash_hash_length hs (by omega) m)
  exact ⟨fun h => one 28 (by decide) (by decide) h, fun h => one 32 (by decide) (by decide) h, fun h => one 48 (by decide) (by decide) h,
    fun h => one 64 (by decide) (by decide) h⟩

set_option maxRecDepth 100000 in
theorem bash_sum512_65 : bashSum512 (List.replicate 65 1) ≠ some (Spec.Bash.hash 64 (List.replicate 65 1)) := by decide +kernel

/-- Sum512 of 65 bytes is not bash512 of them. -/
theorem C139_bash_violated : ∃ m : Bytes, m.length = 65 ∧ bashSum512 m ≠ some (Spec.Bash.hash 64 m) :=
  ⟨List.replicate 65 1, rfl, bash_sum512_65⟩

/-- The functions of xxhash32 and xxhash64: XXH32 and XXH64 of the input under the seed (0 if none), as a number and in big-endian order. -/
theorem C139_xxhash (m : Bytes) (h : m.length < 2 ^ 64) :
    (∀ s, xxh32ChecksumWithSeed m s = Spec.XXHash.xxh32 s m ∧ xxh32SumWithSeed m s = be32 (Spec.XXHash.xxh32 s m)) ∧
    xxh32Checksum m = Spec.XXHash.xxh32 0 m ∧ xxh32Sum m = be32 (Spec.XXHash.xxh32 0 m) ∧
    (∀ s, xxh64ChecksumWithSeed m s = Spec.XXHash.xxh64 s m ∧ xxh64SumWithSeed m s = be64 (Spec.XXHash.xxh64 s m)) ∧
    xxh64Checksum m = Spec.XXHash.xxh64 0 m ∧ xxh64Sum m = be64 (Spec.XXHash.xxh64 0 m) := by
  unfold xxh32ChecksumWithSeed xxh32SumWithSeed xxh32Checksum xxh32Sum xxh64ChecksumWithSeed xxh64SumWithSeed xxh64Checksum xxh64Sum
  refine ⟨fun s => ?_, ?_, ?_, fun s => ?_, ?_, ?_⟩
  · rw [C12_xxh32_checksum s m h]; exact ⟨rfl, rfl⟩
  · rw [C12_xxh32_checksum 0 m h]
  · rw [C12_xxh32_checksum 0 m h]
  · rw [C12_xxh64_checksum s m h]; exact ⟨rfl, rfl⟩
  · rw [C12_xxh64_checksum 0 m h]
  · rw [C12_xxh64_checksum 0 m h]

/-! Non-vacuity: a keyed configuration. -/
example : Skein.Config.Fits { key := [1, 2, 3], nonce := [4] } := ⟨by decide, by decide, by decide, by decide, by decide⟩
end Verif.Props
