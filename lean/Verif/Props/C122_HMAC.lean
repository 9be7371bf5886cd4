import Verif.Lemmas.HMAC
import Verif.Props.C120_FacadeAlgos
import Verif.Props.C02_SM3Marshal
import Verif.Props.C04_MD2Marshal
import Verif.Props.C05_SHA0
import Verif.Props.C07_RIPEMD
import Verif.Props.C114_BLAKEMarshal
import Verif.Props.C45_Kupyna
import Verif.Props.C48_CubeHash
import Verif.Props.C50_BMW
import Verif.Props.C50_Fugue
import Verif.Props.C50_Panama
import Verif.Props.C50_SIMD
/-
C122: HMAC over the hash functions of this module, through the facade or through crypto/hmac directly.
C123: the facade's Hmac and NewHmac.  C124: the table of hash functions for HMAC.  C125: hash functions whose digest is longer than their block.
-/
namespace Verif.Props
open Verif.HMAC (Saver Correct)

/-! ### Lengths of digests -/

theorem foldl_len {α β} (f : List β → α → List β) (n : Nat) (hf : ∀ s a, (f s a).length ≤ n) (l : List α) (s : List β) (hs : s.length ≤ n) :
    (l.foldl f s).length ≤ n := by
  induction l generalizing s with
  | nil => exact hs
  | cons a l ih => exact ih _ (hf _ _)

theorem flatten_len {β} (f : β → Bytes) (k : Nat) (hf : ∀ b, (f b).length = k) (l : List β) : (l.map f).flatten.length = k * l.length := by
  induction l with
  | nil => rfl
  | cons a l ih => simp only [List.map_cons, List.flatten_cons, List.length_append, List.length_cons, hf, ih]; rw [Nat.mul_add]; omega

theorem md2_len (m : Bytes) : (Spec.MD2.hash m).length ≤ 16 := by
  unfold Spec.MD2.hash; dsimp only; rw [List.length_take]; omega

theorem sm3_len (m : Bytes) : (Spec.SM3.hash m).length ≤ 64 := by
  unfold Spec.SM3.hash
  rw [flatten_len be32 4 be32_length]
  have := foldl_len Spec.SM3.CF 8 (fun s a => by unfold Spec.SM3.CF; rw [List.length_zipWith]; simp only [Spec.SM3.Reg.toList, List.length_cons, List.length_nil]; omega)
    (fullBlocks 64 (Spec.SM3.pad m)) Spec.SM3.IV (by decide)
  omega

theorem sha0_len (m : Bytes) : (Spec.SHA0.hash m).length ≤ 64 := by
  unfold Spec.SHA0.hash; dsimp only; simp only [List.length_append, be32_length]; omega

theorem has160_len (m : Bytes) : (Spec.HAS160.hash m).length ≤ 64 := by
  unfold Spec.HAS160.hash; dsimp only; simp only [List.length_append, le32_length]; omega

theorem ripemd_len (c : List U32 → Bytes → List U32) (iv : List U32) (hc : ∀ s b, (c s b).length ≤ 10) (hi : iv.length ≤ 10) (m : Bytes) :
    (Spec.RIPEMD.hashWith c iv m).length ≤ 64 := by
  unfold Spec.RIPEMD.hashWith
  rw [flatten_len le32 4 le32_length]
  have := foldl_len c 10 hc (fullBlocks 64 (Spec.RIPEMD.pad m)) iv hi
  omega

theorem tiger_len (mk : Byte) (n : Nat) (hn : n ≤ 64) (m : Bytes) : ((Spec.Tiger.hash Tiger.boxes mk m).take n).length ≤ 64 := by
  rw [List.length_take]; omega

theorem blake32_len (iv : List U32) (hi : iv.length = 8) (e : Byte) (s : List U32) (m : Bytes) : (Spec.BLAKE.hash32 iv e s m).length ≤ 64 := by
  unfold Spec.BLAKE.hash32
  rw [flatten_len be32 4 be32_length]
  have := foldl_len (Spec.BLAKE.step32 s m.length) 8 (fun h b => by
      rw [show (Spec.BLAKE.step32 s m.length h b).length = 8 by simp [Spec.BLAKE.step32, Spec.BLAKE.compress]])
    (fullBlocks 64 (Spec.BLAKE.pad32 e m)).zipIdx iv (by omega)
  omega

theorem blake64_len (iv : List U64) (hi : iv.length = 8) (e : Byte) (s : List U64) (m : Bytes) : (Spec.BLAKE.hash64 iv e s m).length ≤ 128 := by
  unfold Spec.BLAKE.hash64
  rw [flatten_len be64 8 be64_length]
  have := foldl_len (Spec.BLAKE.step64 s m.length) 8 (fun h b => by
      rw [show (Spec.BLAKE.step64 s m.length h b).length = 8 by simp [Spec.BLAKE.step64, Spec.BLAKE.compress]])
    (fullBlocks 128 (Spec.BLAKE.pad64 e m)).zipIdx iv (by omega)
  omega

theorem panama_len (m : Bytes) : (Spec.Panama.hash m).length ≤ 32 := by
  unfold Spec.Panama.hash
  dsimp only
  rw [List.length_flatMap]
  simp only [le32_length, List.map_const', List.sum_replicate_nat, List.length_range]
  omega

/-! ### C122: hash objects that can be saved -/

/-- What crypto/hmac finds on the objects of package md2. -/
def md2Saver : Saver MD2.Digest := ⟨MD2.marshal, MD2.unmarshal⟩
def sm3Saver : Saver SM3.Digest := ⟨SM3.marshal, SM3.unmarshal⟩
def blake256Saver : Saver BLAKE256.Digest := ⟨BLAKE256.marshal, BLAKE256.unmarshal⟩
def blake512Saver : Saver BLAKE512.Digest := ⟨BLAKE512.marshal, BLAKE512.unmarshal⟩
def cubeSaver : Saver CubeHash.Digest := ⟨CubeHash.marshal, CubeHash.unmarshal⟩

theorem md2_restores : HMAC.Restores (some md2Saver) (fun d m => d.Repr 16 MD2.block MD2.s0 m) :=
  HMAC.restores_some fun d m r _ h _ => md2_load_save d m r h
theorem md2_hL (m : Bytes) : (md2Spec.H m).length ≤ md2Spec.blockSize := by
  unfold md2Spec
  dsimp only
  exact md2_len m

/-- C122, `md2.New`: for every key the object `hmac.New(md2.New, key)` answers every history of calls (any division into writes,
sums, resets) like HMAC-MD2, and no `Reset` of it panics. -/
theorem C122_hmac_md2 : Correct MD2.impl (some md2Saver) MD2.new md2Spec :=
  HMAC.correct_of_sim md2_sim md2_init md2_restores md2_hL

/-- C122, `sm3.New`. -/
theorem C122_hmac_sm3 : Correct SM3.impl (some sm3Saver) SM3.new sm3Spec :=
  HMAC.correct_of_sim sm3_sim sm3_init (HMAC.restores_some fun d m r _ h _ => sm3_load_save d m r h) sm3_len

theorem blake256_restores : HMAC.Restores (some blake256Saver)
    (fun d m => d.Repr 64 BLAKE256.compress (BLAKE256.State.mk [0, 0, 0, 0] BLAKE256.iv256 0#64 false) m) := by
  refine HMAC.restores_some fun d m r _ h _ => ?_
  obtain ⟨d', e1, h1⟩ := BLAKE256.load_save BLAKE256.iv256 [0, 0, 0, 0] (by decide) d r m ⟨rfl, h⟩
  unfold blake256Saver
  dsimp only
  exact ⟨d', e1, h1.2⟩
theorem blake256_hL (m : Bytes) : ((blake256Spec noSalt32).H m).length ≤ (blake256Spec noSalt32).blockSize := by
  unfold blake256Spec
  dsimp only
  unfold Spec.BLAKE.blake256
  exact blake32_len _ (by decide) _ _ m
/-- C122, `blake256.New`. -/
theorem C122_hmac_blake256 : Correct (BLAKE256.impl 256 BLAKE256.iv256) (some blake256Saver) (BLAKE256.new BLAKE256.iv256) (blake256Spec noSalt32) :=
  HMAC.correct_of_sim blake256_sim blake256_init blake256_restores blake256_hL

theorem blake224_restores : HMAC.Restores (some blake256Saver)
    (fun d m => d.Repr 64 BLAKE256.compress (BLAKE256.State.mk [0, 0, 0, 0] BLAKE256.iv224 0#64 false) m) := by
  refine HMAC.restores_some fun d m r _ h _ => ?_
  obtain ⟨d', e1, h1⟩ := BLAKE256.load_save BLAKE256.iv224 [0, 0, 0, 0] (by decide) d r m ⟨rfl, h⟩
  unfold blake256Saver
  dsimp only
  exact ⟨d', e1, h1.2⟩
theorem blake224_hL (m : Bytes) : ((blake224Spec noSalt32).H m).length ≤ (blake224Spec noSalt32).blockSize := by
  unfold blake224Spec
  dsimp only
  unfold Spec.BLAKE.blake224
  have := blake32_len Spec.BLAKE.iv224 (by decide) 0#8 noSalt32 m
  rw [List.length_take]; omega
/-- C122, `blake256.New224`. -/
theorem C122_hmac_blake224 : Correct (BLAKE256.impl 224 BLAKE256.iv224) (some blake256Saver) (BLAKE256.new BLAKE256.iv224) (blake224Spec noSalt32) :=
  HMAC.correct_of_sim blake224_sim blake224_init blake224_restores blake224_hL

theorem blake512_restores : HMAC.Restores (some blake512Saver)
    (fun d m => d.Repr 128 BLAKE512.compress (BLAKE512.State.mk [0, 0, 0, 0] BLAKE512.iv512 0#64 0#64) m) := by
  refine HMAC.restores_some fun d m r _ h _ => ?_
  obtain ⟨d', e1, h1⟩ := BLAKE512.load_save BLAKE512.iv512 [0, 0, 0, 0] (by decide) d r m ⟨rfl, h⟩
  unfold blake512Saver
  dsimp only
  exact ⟨d', e1, h1.2⟩
theorem blake512_hL (m : Bytes) : ((blake512Spec noSalt64).H m).length ≤ (blake512Spec noSalt64).blockSize := by
  unfold blake512Spec
  dsimp only
  unfold Spec.BLAKE.blake512
  exact blake64_len _ (by decide) _ _ m
/-- C122, `blake512.New`. -/
theorem C122_hmac_blake512 : Correct (BLAKE512.impl 64 BLAKE512.iv512) (some blake512Saver) (BLAKE512.new BLAKE512.iv512) (blake512Spec noSalt64) :=
  HMAC.correct_of_sim blake512_sim blake512_init blake512_restores blake512_hL

theorem blake384_restores : HMAC.Restores (some blake512Saver)
    (fun d m => d.Repr 128 BLAKE512.compress (BLAKE512.State.mk [0, 0, 0, 0] BLAKE512.iv384 0#64 0#64) m) := by
  refine HMAC.restores_some fun d m r _ h _ => ?_
  obtain ⟨d', e1, h1⟩ := BLAKE512.load_save BLAKE512.iv384 [0, 0, 0, 0] (by decide) d r m ⟨rfl, h⟩
  unfold blake512Saver
  dsimp only
  exact ⟨d', e1, h1.2⟩
theorem blake384_hL (m : Bytes) : ((blake384Spec noSalt64).H m).length ≤ (blake384Spec noSalt64).blockSize := by
  unfold blake384Spec
  dsimp only
  unfold Spec.BLAKE.blake384
  have := blake64_len Spec.BLAKE.iv384 (by decide) 0#8 noSalt64 m
  rw [List.length_take]; omega
/-- C122, `blake512.New384`. -/
theorem C122_hmac_blake384 : Correct (BLAKE512.impl 48 BLAKE512.iv384) (some blake512Saver) (BLAKE512.new BLAKE512.iv384) (blake384Spec noSalt64) :=
  HMAC.correct_of_sim blake384_sim blake384_init blake384_restores blake384_hL

theorem cube_restores (P : Spec.CubeHash.Params) (ok : CubeHash.Ok P) : HMAC.Restores (some cubeSaver) (CubeHash.Rep P) := by
  refine HMAC.restores_some fun d m r m' h h' => ?_
  have := CubeHash.unmarshal_marshal P ok d r m m' h h'
  unfold cubeSaver
  dsimp only
  exact this
theorem cube_hL (P : Spec.CubeHash.Params) (hP : P.h / 8 ≤ P.b) (m : Bytes) : (Spec.CubeHash.hash P m).length ≤ P.b := by
  unfold Spec.CubeHash.hash
  dsimp only
  rw [List.length_take]
  omega
/-- C122, CubeHash with a digest no longer than its block (`cubehash.New256` and the shorter ones). -/
theorem C122_hmac_cubehash (P : Spec.CubeHash.Params) (ok : CubeHash.Ok P) (hP : P.h / 8 ≤ P.b) :
    Correct CubeHash.impl (some cubeSaver) (CubeHash.new P.h P.b P.r P.i P.f) { H := Spec.CubeHash.hash P, size := P.h / 8, blockSize := P.b } :=
  HMAC.correct_of_sim (cube_sim P ok) (cube_new_rep P) (cube_restores P ok) (cube_hL P hP)

/-! ### C122: hash objects that cannot be saved -/

theorem C122_hmac_sha0 : Correct SHA0.impl none SHA0.new sha0Spec := HMAC.correct_of_refines C05_sha0_refines sha0_len
theorem C122_hmac_has160 : Correct HAS160.impl none HAS160.new has160Spec := HMAC.correct_of_refines C06_has160_refines has160_len
theorem C122_hmac_ripemd128 : Correct RIPEMD.impl128 none RIPEMD.new128 ripemd128Spec :=
  HMAC.correct_of_refines C07_ripemd128_refines (ripemd_len _ _ (fun _ _ => by unfold Spec.RIPEMD.compress128; simp) (by decide))
theorem C122_hmac_ripemd160 : Correct RIPEMD.impl160 none RIPEMD.new160 ripemd160Spec :=
  HMAC.correct_of_refines C07_ripemd160_refines (ripemd_len _ _ (fun _ _ => by unfold Spec.RIPEMD.compress160; simp) (by decide))
theorem C122_hmac_ripemd256 : Correct RIPEMD.impl256 none RIPEMD.new256 ripemd256Spec :=
  HMAC.correct_of_refines C07_ripemd256_refines (ripemd_len _ _ (fun _ _ => by unfold Spec.RIPEMD.compress256; simp) (by decide))
theorem C122_hmac_ripemd320 : Correct RIPEMD.impl320 none RIPEMD.new320 ripemd320Spec :=
  HMAC.correct_of_refines C07_ripemd320_refines (ripemd_len _ _ (fun _ _ => by unfold Spec.RIPEMD.compress320; simp) (by decide))
theorem C122_hmac_tiger : Correct (Tiger.impl 24 1) none Tiger.new (tigerSpec 24 0x01#8) :=
  HMAC.correct_of_refines (C08_tiger_refines 24 (by decide)) (tiger_len _ _ (by decide))
theorem C122_hmac_tiger2 : Correct (Tiger.impl 24 2) none Tiger.new (tigerSpec 24 0x80#8) :=
  HMAC.correct_of_refines (C08_tiger2_refines 24 (by decide)) (tiger_len _ _ (by decide))
theorem lsh_len {w} (P : Spec.LSH.Params w) (n k : Nat) (h : n / 8 ≤ k) (m : Bytes) : (Spec.LSH.hash P n m).length ≤ k := by
  unfold Spec.LSH.hash; rw [List.length_take]; omega
theorem C122_hmac_lsh256 : Correct (LSH.impl LSH.pkg256) none (LSH.reset LSH.pkg256 32) { H := Spec.LSH.hash Spec.LSH.lsh256 256, size := 32, blockSize := 128 } :=
  HMAC.correct_of_refines C31_lsh256_contract (lsh_len _ _ _ (by decide))
theorem C122_hmac_lsh512 : Correct (LSH.impl LSH.pkg512) none (LSH.reset LSH.pkg512 64) { H := Spec.LSH.hash Spec.LSH.lsh512 512, size := 64, blockSize := 256 } :=
  HMAC.correct_of_refines C31_lsh512_contract (lsh_len _ _ _ (by decide))
theorem C122_hmac_kupyna :
    Correct Kupyna.impl256 none (Kupyna.reset Kupyna.fns256) { H := Spec.Kupyna.hash 8 32, size := 32, blockSize := 64 } ∧
    Correct Kupyna.impl384 none (Kupyna.reset Kupyna.fns512) { H := Spec.Kupyna.hash 16 48, size := 48, blockSize := 128 } ∧
    Correct Kupyna.impl512 none (Kupyna.reset Kupyna.fns512) { H := Spec.Kupyna.hash 16 64, size := 64, blockSize := 128 } :=
  ⟨HMAC.correct_of_refines C45_kupyna.1 (fun m => by show (Spec.Kupyna.hash 8 32 m).length ≤ 64; rw [kupyna_hash_length _ _ (by decide)]; decide),
   HMAC.correct_of_refines C45_kupyna.2.1 (fun m => by show (Spec.Kupyna.hash 16 48 m).length ≤ 128; rw [kupyna_hash_length _ _ (by decide)]; decide),
   HMAC.correct_of_refines C45_kupyna.2.2 (fun m => by show (Spec.Kupyna.hash 16 64 m).length ≤ 128; rw [kupyna_hash_length _ _ (by decide)]; decide)⟩
theorem C122_hmac_panama : Correct Panama.impl none Panama.reset { H := Spec.Panama.hash, size := 32, blockSize := 32 } :=
  HMAC.correct_of_refines C50_panama panama_len
theorem C122_hmac_simd :
    Correct (SIMD.impl SIMD.cfg256) none SIMD.new224 { H := Spec.SIMD.simd224, size := 28, blockSize := 64 } ∧
    Correct (SIMD.impl SIMD.cfg256) none SIMD.new256 { H := Spec.SIMD.simd256, size := 32, blockSize := 64 } ∧
    Correct (SIMD.impl SIMD.cfg512) none SIMD.new384 { H := Spec.SIMD.simd384, size := 48, blockSize := 128 } ∧
    Correct (SIMD.impl SIMD.cfg512) none SIMD.new512 { H := Spec.SIMD.simd512, size := 64, blockSize := 128 } := by
  obtain ⟨h1, h2, h3, h4⟩ := C50_simd_contract
  refine ⟨HMAC.correct_of_refines h1 fun m => ?_, HMAC.correct_of_refines h2 fun m => ?_, HMAC.correct_of_refines h3 fun m => ?_, HMAC.correct_of_refines h4 fun m => ?_⟩
  · show (Spec.SIMD.hash _ m).length ≤ 64; rw [SIMD.hash_length]; decide
  · show (Spec.SIMD.hash _ m).length ≤ 64; rw [SIMD.hash_length]; decide
  · show (Spec.SIMD.hash _ m).length ≤ 128; rw [SIMD.hash_length]; decide
  · show (Spec.SIMD.hash _ m).length ≤ 128; rw [SIMD.hash_length]; decide

-- Tests: the vector for HmacSM3 of hash/hmac_test.go, in two writes; and again after a Reset, which goes through the saved states.
set_option maxRecDepth 100000 in
example : ((HMAC.new SM3.impl SM3.new (ascii "pass123")).map fun h => (HMAC.impl SM3.impl (some sm3Saver)).run h
      [.write (ascii "sdffgsdgfsd"), .write (ascii "fg123156rt5"), .sum [], .reset, .write (ascii "sdffgsdgfsdfg123156rt5"), .sum [7#8], .size, .blockSize]) =
    some [.wrote 11, .wrote 11, .bytes (hex "997f778d1ecbd92845c0061b4d1d658ef84170bb57efbabc7cd4ef5c953f8446"), .done,
      .wrote 22, .bytes (7#8 :: hex "997f778d1ecbd92845c0061b4d1d658ef84170bb57efbabc7cd4ef5c953f8446"), .num 32, .num 64] := by
  decide +kernel

/-! ### C123: the facade -/

open Verif.Facade in
/-- C123: `Hmac(h, secret)` replaces the data by its HMAC and changes nothing else, for every hash object of which C122 holds. -/
theorem C123_facade_hmac {σ τ} {I : HashImpl σ} {M : Option (Saver σ)} {s₀ : σ} {S : HashSpec} (hc : Correct I M s₀ S) (secret : Bytes) (t : Facade τ) :
    HMAC.mHmac I M s₀ secret t = some { t with data := Spec.HMAC.hmac S.blockSize S.H secret t.data } := by
  obtain ⟨h, e, hr, -⟩ := hc secret
  have := digestWith_of (I := HMAC.impl I M) (h₀ := h) (t := t) (hr [.write t.data, .sum []]) rfl
  unfold HMAC.mHmac
  simp only [e, Option.bind_eq_bind, Option.bind_some]
  exact this

open Verif.Facade in
/-- C123: `NewHmac(h, secret)` followed by any writes and a `Sum` gives the HMAC of the bytes written. -/
theorem C123_facade_new_hmac {σ} {I : HashImpl σ} {M : Option (Saver σ)} {s₀ : σ} {S : HashSpec} (hc : Correct I M s₀ S) (secret : Bytes) (t : Facade (HMAC.Mac σ))
    (ps : List Bytes) (b : Bytes) :
    ∃ u, (HMAC.mNewHmac I s₀ secret t).bind (writesThenSum (HMAC.impl I M) ps b) = some u ∧
      u.data = b ++ Spec.HMAC.hmac S.blockSize S.H secret ps.flatten ∧ u.err = t.err := by
  obtain ⟨h, e, hr, -⟩ := hc secret
  unfold HMAC.mNewHmac
  simp only [e, Option.bind_eq_bind, Option.bind_some]
  exact stream_of (H := Spec.HMAC.hmac S.blockSize S.H secret) (hr (ps.map .write ++ [.sum b])) rfl

open Verif.Facade in
example (t : Facade Unit) (secret : Bytes) : HMAC.mHmac SM3.impl (some sm3Saver) SM3.new secret t =
    some { t with data := Spec.HMAC.hmac 64 Spec.SM3.hash secret t.data } := C123_facade_hmac C122_hmac_sm3 secret t

/-! ### C124: the table of hash functions -/

/-- The function a history of registrations leaves under `h`: that of the last one for `h`. -/
def lastRegistered {φ} (h : Nat) (regs : List (Nat × Option φ)) : Option (Option φ) :=
  (regs.reverse.find? fun r => r.1 = h).map (·.2)

/-- C124: after any further registrations, `HmacHash(h).New()` calls the function last registered for `h`; if none was registered since
the start, the one the package registers itself; and it panics when there is neither, or the last registered function is nil. -/
theorem C124_registry (h : Nat) (regs : List (Nat × Option HMAC.Ctor)) :
    HMAC.lookup (regs.foldl (fun T r => HMAC.register T r.1 r.2) HMAC.initTable) h =
      match lastRegistered h regs with
      | some f => f
      | none => HMAC.lookup HMAC.initTable h := by
  unfold lastRegistered
  rw [← List.reverse_reverse regs, List.reverse_reverse regs.reverse]
  generalize regs.reverse = l
  induction l with
  | nil => rfl
  | cons r l ih =>
    rw [List.reverse_cons, List.foldl_append]
    simp only [List.foldl_cons, List.foldl_nil, List.find?_cons]
    by_cases hr : r.1 = h
    · simp [HMAC.lookup, HMAC.register, hr]
    · have h2 : ¬ h = r.1 := fun e => hr e.symm
      simp only [decide_eq_false hr]
      rw [← ih]
      simp [HMAC.lookup, HMAC.register, h2]

/-- C124: the numbers 1 to 17 stand for the documented algorithms, every other number is unavailable (`New` panics). -/
theorem C124_initial (h : Nat) : HMAC.lookup HMAC.initTable h = if h = 0 then none else HMAC.ids[h - 1]? := by
  match h with
  | 0 | 1 | 2 | 3 | 4 | 5 | 6 | 7 | 8 | 9 | 10 | 11 | 12 | 13 | 14 | 15 | 16 | 17 => decide
  | n + 18 =>
    rw [if_neg (by omega), List.getElem?_eq_none (by show 17 ≤ n + 18 - 1; omega)]
    unfold HMAC.lookup HMAC.initTable
    simp only [HMAC.register, show HMAC.num .adler32 = 1 from rfl, show HMAC.num .md2 = 2 from rfl, show HMAC.num .md4 = 3 from rfl,
      show HMAC.num .md5 = 4 from rfl, show HMAC.num .sha1 = 5 from rfl, show HMAC.num .sha224 = 6 from rfl, show HMAC.num .sha256 = 7 from rfl,
      show HMAC.num .sha384 = 8 from rfl, show HMAC.num .sha512 = 9 from rfl, show HMAC.num .sha512_224 = 10 from rfl,
      show HMAC.num .sha512_256 = 11 from rfl, show HMAC.num .sha3_224 = 12 from rfl, show HMAC.num .sha3_256 = 13 from rfl,
      show HMAC.num .sha3_384 = 14 from rfl, show HMAC.num .sha3_512 = 15 from rfl, show HMAC.num .ripemd160 = 16 from rfl,
      show HMAC.num .sm3 = 17 from rfl]
    simp

example : HMAC.lookup HMAC.initTable 17 = some .sm3 ∧ HMAC.lookup HMAC.initTable 18 = none ∧
    HMAC.lookup ([(18, some .md2), (17, none)].foldl (fun T r => HMAC.register T r.1 r.2) HMAC.initTable) 18 = some .md2 := by decide

/-! ### C125: long keys -/

/-- C125 is violated for Fugue (`hmac.New(fugue.New256, key)`, as in fugue_test.go:304): its block has 4 bytes and its digest 32, so of the
digest of a longer key 4 bytes are kept.  Every key whatsoever is equivalent to one of 4 bytes: no history of calls tells them apart. -/
theorem C125_fugue_hmac_violated (key : Bytes) : ∃ key' : Bytes, key'.length = 4 ∧
    ∃ h h', HMAC.new Fugue.impl Fugue.new256 key = some h ∧ HMAC.new Fugue.impl Fugue.new256 key' = some h' ∧
      ∀ ops, (HMAC.impl Fugue.impl none).run h ops = (HMAC.impl Fugue.impl none).run h' ops := by
  have hf := C50_fugue_contract.2.1
  refine ⟨HMAC.keyBlock 4 Spec.Fugue.fugue256 key, ?_, ?_⟩
  · unfold HMAC.keyBlock Spec.HMAC.block
    dsimp only
    simp only [List.length_take, List.length_append, zeros_length]
    omega
  · refine HMAC.same_block hf.sim hf (fun _ e => by cases e) _ _ ?_
    show HMAC.keyBlock 4 Spec.Fugue.fugue256 key = HMAC.keyBlock 4 Spec.Fugue.fugue256 (HMAC.keyBlock 4 Spec.Fugue.fugue256 key)
    have hl : (HMAC.keyBlock 4 Spec.Fugue.fugue256 key).length = 4 := by
      unfold HMAC.keyBlock Spec.HMAC.block
      dsimp only
      simp only [List.length_take, List.length_append, zeros_length]
      omega
    generalize HMAC.keyBlock 4 Spec.Fugue.fugue256 key = k at hl
    unfold HMAC.keyBlock Spec.HMAC.block
    dsimp only
    rw [if_neg (by omega), hl]
    simp [zeros, List.take_of_length_le (Nat.le_of_eq hl)]

end Verif.Props
