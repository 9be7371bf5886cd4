import Verif.Props.C112_Lyra2Sum
import Verif.Props.C27_BLAKE3
import Verif.Props.C36_KeyTree
import Verif.Props.C39_Skeins
import Verif.Props.C120_FacadeAlgos
import Verif.Spec.FSB
import Verif.Spec.Haval
import Verif.Spec.RadioGatun
import Verif.Spec.Shabal
import Verif.Spec.Panama
import Verif.Spec.Belt
import Verif.Spec.RIPEMD
import Verif.Spec.SHA0
import Verif.Spec.K12
import Verif.Spec.Esch
import Verif.Lemmas.Belt
import Verif.Lemmas.JHBits
import Verif.Lemmas.Whirlpool
/-
The lengths of the digests of the specifications.
-/
namespace Verif.DigestLen

theorem foldl_len {α β} (f : List β → α → List β) (n : Nat) (l : List α) (hf : ∀ a ∈ l, ∀ s, s.length = n → (f s a).length = n) (s : List β) (hs : s.length = n) :
    (l.foldl f s).length = n := by
  induction l generalizing s with
  | nil => exact hs
  | cons a l ih => exact ih (fun b hb => hf b (List.mem_cons_of_mem _ hb)) _ (hf a List.mem_cons_self _ hs)

theorem flatMap_len {β} (f : β → Bytes) (k : Nat) (hf : ∀ b, (f b).length = k) (l : List β) : (l.flatMap f).length = k * l.length := by
  induction l with
  | nil => rfl
  | cons a l ih => simp only [List.flatMap_cons, List.length_append, List.length_cons, hf, ih]; rw [Nat.mul_add]; omega

theorem flatten_len {β} (f : β → Bytes) (k : Nat) (hf : ∀ b, (f b).length = k) (l : List β) : (l.map f).flatten.length = k * l.length := by
  rw [← List.flatMap_def]; exact flatMap_len f k hf l

theorem sm3 (m : Bytes) : (Spec.SM3.hash m).length = 32 := by
  unfold Spec.SM3.hash
  rw [flatten_len be32 4 be32_length, foldl_len Spec.SM3.CF 8]
  · intro a _ s hs
    unfold Spec.SM3.CF
    rw [List.length_zipWith]
    rfl
  · rfl

theorem sha0 (m : Bytes) : (Spec.SHA0.hash m).length = 20 := by
  unfold Spec.SHA0.hash; dsimp only; simp only [List.length_append, be32_length]

theorem has160 (m : Bytes) : (Spec.HAS160.hash m).length = 20 := by
  unfold Spec.HAS160.hash; dsimp only; simp only [List.length_append, le32_length]

theorem ripemd (c : List U32 → Bytes → List U32) (iv : List U32) (n : Nat) (hc : ∀ s b, (c s b).length = n) (hi : iv.length = n) (m : Bytes) :
    (Spec.RIPEMD.hashWith c iv m).length = 4 * n := by
  unfold Spec.RIPEMD.hashWith
  rw [flatten_len le32 4 le32_length, foldl_len c n _ (fun b _ s _ => hc s b) iv hi]

theorem ripemd128 (m : Bytes) : (Spec.RIPEMD.hash128 m).length = 16 := ripemd _ _ 4 (fun _ _ => by unfold Spec.RIPEMD.compress128; rfl) rfl m
theorem ripemd160 (m : Bytes) : (Spec.RIPEMD.hash160 m).length = 20 := ripemd _ _ 5 (fun _ _ => by unfold Spec.RIPEMD.compress160; rfl) rfl m
theorem ripemd256 (m : Bytes) : (Spec.RIPEMD.hash256 m).length = 32 := ripemd _ _ 8 (fun _ _ => by unfold Spec.RIPEMD.compress256; rfl) rfl m
theorem ripemd320 (m : Bytes) : (Spec.RIPEMD.hash320 m).length = 40 := ripemd _ _ 10 (fun _ _ => by unfold Spec.RIPEMD.compress320; rfl) rfl m

theorem blake32 (iv : List U32) (hi : iv.length = 8) (e : Byte) (s : List U32) (m : Bytes) : (Spec.BLAKE.hash32 iv e s m).length = 32 := by
  unfold Spec.BLAKE.hash32
  rw [flatten_len be32 4 be32_length, foldl_len (Spec.BLAKE.step32 s m.length) 8 _
    (fun b _ h _ => by simp [Spec.BLAKE.step32, Spec.BLAKE.compress]) iv hi]

theorem blake64 (iv : List U64) (hi : iv.length = 8) (e : Byte) (s : List U64) (m : Bytes) : (Spec.BLAKE.hash64 iv e s m).length = 64 := by
  unfold Spec.BLAKE.hash64
  rw [flatten_len be64 8 be64_length, foldl_len (Spec.BLAKE.step64 s m.length) 8 _
    (fun b _ h _ => by simp [Spec.BLAKE.step64, Spec.BLAKE.compress]) iv hi]

theorem blake256 (s : List U32) (m : Bytes) : (Spec.BLAKE.blake256 s m).length = 32 := blake32 _ rfl _ _ _
theorem blake224 (s : List U32) (m : Bytes) : (Spec.BLAKE.blake224 s m).length = 28 := by
  unfold Spec.BLAKE.blake224; rw [List.length_take, blake32 _ rfl]; rfl
theorem blake512 (s : List U64) (m : Bytes) : (Spec.BLAKE.blake512 s m).length = 64 := blake64 _ rfl _ _ _
theorem blake384 (s : List U64) (m : Bytes) : (Spec.BLAKE.blake384 s m).length = 48 := by
  unfold Spec.BLAKE.blake384; rw [List.length_take, blake64 _ rfl]; rfl

theorem panama (m : Bytes) : (Spec.Panama.hash m).length = 32 := by
  unfold Spec.Panama.hash
  dsimp only
  rw [flatMap_len _ 4 (fun _ => le32_length _), List.length_range]

theorem shabal_block (W : U64) (M : Nat → U32) (s : Spec.Shabal.State) : (Spec.Shabal.block W M s).C.length = 16 := by
  unfold Spec.Shabal.block
  dsimp only
  unfold Spec.Shabal.perm
  dsimp only
  have key : ∀ (l : List Nat) (s : Spec.Shabal.State), (l.foldl (Spec.Shabal.step M) s).B.length = s.B.length := by
    intro l
    induction l with
    | nil => intro s; rfl
    | cons a l ih => intro s; rw [List.foldl_cons, ih]; simp [Spec.Shabal.step]
  rw [key]
  simp

theorem shabal (n : Nat) (h2 : n ≤ 16) (m : Bytes) : (Spec.Shabal.hash (32 * n) m).length = 4 * n := by
  unfold Spec.Shabal.hash
  dsimp only
  rw [flatMap_len _ 4 (fun _ => le32_length _), List.length_drop]
  rw [show (List.range 3) = [0, 1, 2] from rfl, List.foldl_cons, List.foldl_cons, List.foldl_cons, List.foldl_nil, shabal_block]
  omega

theorem streebog (size : Nat) (h : size ≤ 64) (m : Bytes) : (Spec.Streebog.hash size m).length = size := by
  have hrl := restBlock_length 64 m
  have hmod := Nat.mod_lt m.length (show 0 < 64 by decide)
  have hpl : (restBlock 64 m ++ [1#8] ++ zeros (63 - m.length % 64)).length = 64 := by simp; omega
  have h0 := Gost12.foldLen (fullBlocks 64 m) (fun b hb => mem_fullBlocks_length 64 m b hb) (Gost12.iv size, 0, 0) (Gost12.iv_length size)
  unfold Spec.Streebog.hash
  simp only
  rw [show (if size = 32 then List.replicate 64 1#8 else zeros 64) = Gost12.iv size from rfl]
  generalize (fullBlocks 64 m).foldl Spec.Streebog.absorb (Gost12.iv size, 0, 0) = st at *
  obtain ⟨a, b, c⟩ := st
  simp only at h0 ⊢
  rw [List.length_drop, Spec.Streebog.g_length (Spec.Streebog.g_length (Spec.Streebog.g_length h0 hpl) (Spec.Streebog.natLE_length _ _)) (Spec.Streebog.natLE_length _ _)]
  omega

theorem beltH : (Spec.Belt.H.take 32).length = 32 := by decide +kernel

theorem belt (m : Bytes) : (Spec.Belt.hash m).length = 32 := by
  have key : ∀ (l : List Bytes), (∀ b ∈ l, b.length = 32) → ∀ (sh : Bytes × Bytes), sh.1.length = 16 → sh.2.length = 32 →
      (l.foldl Spec.Belt.step sh).1.length = 16 ∧ (l.foldl Spec.Belt.step sh).2.length = 32 := by
    intro l
    induction l with
    | nil => intro _ sh h1 h2; exact ⟨h1, h2⟩
    | cons a l ih =>
      intro hl sh h1 h2
      have ha := hl a List.mem_cons_self
      exact ih (fun b hb => hl b (List.mem_cons_of_mem _ hb)) _ (Belt.step_length sh a h1 h2)
        (by unfold Spec.Belt.step; exact Belt.sigma2_length _ _ ha)
  have := key (fullBlocks 32 (Spec.Belt.pad m)) (fun b hb => mem_fullBlocks_length 32 _ b hb) (zeros 16, Spec.Belt.H.take 32) (zeros_length _) beltH
  unfold Spec.Belt.hash
  generalize (fullBlocks 32 (Spec.Belt.pad m)).foldl Spec.Belt.step (zeros 16, Spec.Belt.H.take 32) = sh at this
  obtain ⟨a, b⟩ := sh
  dsimp only at this ⊢
  exact Belt.sigma2_length _ _ (by simp [Spec.Belt.len128, this.1])

theorem groestl_P (n : Nat) (st : Bytes) : (Spec.Groestl.P n st).length = 8 * n :=
  Props.groestl_foldl_length Spec.Groestl.rcP _ _ (by unfold Spec.Groestl.rounds; split <;> decide) st
theorem groestl_Q (n : Nat) (st : Bytes) : (Spec.Groestl.Q n st).length = 8 * n :=
  Props.groestl_foldl_length Spec.Groestl.rcQ _ _ (by unfold Spec.Groestl.rounds; split <;> decide) st

theorem groestl (hs : Nat) (h : hs ≤ 512) (m : Bytes) : (Spec.Groestl.hash hs m).length = hs / 8 := by
  unfold Spec.Groestl.hash
  dsimp only
  have hc : 8 ≤ 8 * Spec.Groestl.cols hs ∧ hs / 8 ≤ 8 * Spec.Groestl.cols hs := by unfold Spec.Groestl.cols; split <;> omega
  have hi : (Spec.Groestl.iv hs).length = 8 * Spec.Groestl.cols hs := by
    unfold Spec.Groestl.iv; rw [List.length_append, zeros_length, be64_length]; omega
  generalize Spec.Groestl.cols hs = n at *
  rw [List.length_drop]
  unfold Spec.Groestl.xor
  rw [List.length_zipWith, groestl_P, foldl_len (Spec.Groestl.f n) (8 * n) _ _ _ hi]
  · omega
  · intro b _ s hs'
    unfold Spec.Groestl.f Spec.Groestl.xor
    rw [List.length_zipWith, List.length_zipWith, groestl_P, groestl_Q, hs', Nat.min_self, Nat.min_self]

theorem skein (n : Nat) (hn : 0 < n) (size : Nat) (key : Option Bytes) (args : List (Nat × Bytes)) (m : Bytes) :
    (Spec.Skein.skein n size key args m).length = size := by
  unfold Spec.Skein.skein Spec.Skein.output
  rw [List.length_take]
  rw [flatMap_len _ (8 * n) (fun i => by rw [flatMap_len _ 8 (fun _ => le64_length _), Skein.ubi_length n hn]), List.length_range]
  apply Nat.min_eq_left
  have := Nat.div_add_mod (size + 8 * n - 1) (8 * n)
  have hm := Nat.mod_lt (size + 8 * n - 1) (show 0 < 8 * n by omega)
  omega

theorem whirlpool (V : Spec.Whirlpool.Version) (m : Bytes) : (Spec.Whirlpool.hash V m).length = 64 := by
  unfold Spec.Whirlpool.hash
  exact foldl_len _ 64 _ (fun b _ s _ => by unfold Spec.Whirlpool.compress Spec.Whirlpool.addKey; exact Whirlpool.matrix_length _) _ (zeros_length _)

theorem jh_F8 (h m : Bytes) (hm : m.length = 64) : (Spec.JH.F8 h m).length = 128 := by
  unfold Spec.JH.F8
  unfold Spec.JH.xor
  rw [List.length_zipWith, JH.E8_length, List.length_append, zeros_length, hm]; rfl

theorem jh (hs : Nat) (h : hs ≤ 128) (m : Bytes) : (Spec.JH.hash hs m).length = hs := by
  unfold Spec.JH.hash
  rw [List.length_drop, foldl_len _ 128 _ (fun b hb s _ => jh_F8 s b (mem_fullBlocks_length 64 _ b hb)) _ (by unfold Spec.JH.iv; exact jh_F8 _ _ (zeros_length _))]
  omega

theorem haval (p n : Nat) (hn : n = 128 ∨ n = 160 ∨ n = 192 ∨ n = 224 ∨ n = 256) (m : Bytes) : (Spec.Haval.hash p n m).length = n / 8 := by
  unfold Spec.Haval.hash
  rw [flatMap_len _ 4 (fun _ => le32_length _)]
  generalize (fullBlocks 128 (Spec.Haval.pad p n m)).foldl (Spec.Haval.compress p) Spec.Haval.init = T
  rcases hn with rfl | rfl | rfl | rfl | rfl <;> rfl

theorem fsb (pi : Nat → Byte) (P : Spec.FSB.Params) (h : P.hashbits / 8 ≤ 64) (m : Bytes) : (Spec.FSB.hash pi P m).length = P.hashbits / 8 := by
  unfold Spec.FSB.hash
  rw [List.length_take, whirlpool]
  omega

theorem cubehash (P : Spec.CubeHash.Params) (h : P.h / 8 ≤ 128) (m : Bytes) : (Spec.CubeHash.hash P m).length = P.h / 8 := by
  unfold Spec.CubeHash.hash
  dsimp only
  rw [List.length_take]
  unfold Spec.CubeHash.toBytes
  rw [flatMap_len _ 4 (fun _ => le32_length _)]
  have hk : ∀ n s, s.length = 32 → (Spec.CubeHash.rounds n s).length = 32 := CubeHash.rounds_length
  have := foldl_len (Spec.CubeHash.absorb P) 32 (fullBlocks P.b (Spec.CubeHash.pad P m))
    (fun b _ s _ => by unfold Spec.CubeHash.absorb; exact hk _ _ (by unfold Spec.CubeHash.ofBytes; rw [List.length_map, List.length_range])) _ (CubeHash.init_length P)
  rw [hk _ _ (by rw [List.length_set]; exact this)]
  omega

theorem k12 (m c : Bytes) (L : Nat) : (Spec.K12.kt m c L).length = L := by
  unfold Spec.K12.kt
  dsimp only
  split <;> (unfold Spec.K12.turbo; rw [List.length_map, List.length_range])

theorem blake3 (key : List U32) (hk : key.length = 8) (fl : Byte) (n : Nat) (m : Bytes) : (Spec.BLAKE3.hashMode key fl n m).length = n :=
  Props.output_length _ (BLAKE3.tree_h_length key fl hk 0 m) n

theorem radioGatun32 (m : Bytes) : (Spec.RadioGatun.hash Spec.RadioGatun.rg32 m).length = 32 := by
  unfold Spec.RadioGatun.hash
  dsimp only
  have : ∀ n s, (Spec.RadioGatun.output Spec.RadioGatun.rg32 n s).length = 8 * n := by
    intro n
    induction n with
    | zero => intro s; rfl
    | succ n ih => intro s; rw [Spec.RadioGatun.output, List.length_append, List.length_append, ih]; simp only [Spec.RadioGatun.rg32, le32_length]; omega
  rw [this]; rfl
theorem radioGatun64 (m : Bytes) : (Spec.RadioGatun.hash Spec.RadioGatun.rg64 m).length = 32 := by
  unfold Spec.RadioGatun.hash
  dsimp only
  have : ∀ n s, (Spec.RadioGatun.output Spec.RadioGatun.rg64 n s).length = 16 * n := by
    intro n
    induction n with
    | zero => intro s; rfl
    | succ n ih => intro s; rw [Spec.RadioGatun.output, List.length_append, List.length_append, ih]; simp only [Spec.RadioGatun.rg64, le64_length]; omega
  rw [this]; rfl

/-! MD2 -/

theorem md2_pass (l : Bytes) : ∀ t, (Spec.MD2.pass t l).1.length = l.length := by
  induction l with
  | nil => intro t; rfl
  | cons a l ih => intro t; rw [Spec.MD2.pass]; simp only [List.length_cons, ih]
theorem md2_passes (l : Bytes) (n : Nat) : (Spec.MD2.passes l n).1.length = l.length := by
  induction n with
  | zero => rfl
  | succ n ih => rw [Spec.MD2.passes]; simp only [md2_pass, ih]
theorem md2_step (X b : Bytes) (h : 16 ≤ X.length) : 16 ≤ (Spec.MD2.step X b).length := by
  unfold Spec.MD2.step
  rw [md2_passes]
  simp only [List.length_append, List.length_take]
  omega
attribute [local irreducible] Spec.MD2.step in
theorem md2_foldl (l : List Bytes) (X : Bytes) (h : 16 ≤ X.length) : 16 ≤ (l.foldl Spec.MD2.step X).length := by
  induction l generalizing X with
  | nil => exact h
  | cons a l ih => rw [List.foldl_cons]; exact ih _ (md2_step X a h)

attribute [local irreducible] Spec.MD2.step Spec.MD2.checksum Spec.MD2.pad in
theorem md2 (m : Bytes) : (Spec.MD2.hash m).length = 16 := by
  unfold Spec.MD2.hash
  generalize fullBlocks 16 (Spec.MD2.pad m) = bl
  dsimp only
  rw [List.length_take]
  exact Nat.min_eq_left (md2_step _ _ (md2_foldl _ _ (by rw [zeros_length]; decide)))

/-! Esch -/

theorem esch_linear (st : List Spec.Esch.Branch) (h : st.length % 2 = 0) : (Spec.Esch.linear st).length = st.length := by
  unfold Spec.Esch.linear
  dsimp only
  simp only [List.length_append, List.length_drop, List.length_take, List.length_map, List.length_zip]
  omega
theorem esch_step (s : Nat) (st : List Spec.Esch.Branch) (h : st.length % 2 = 0) : (Spec.Esch.step s st).length = st.length := by
  unfold Spec.Esch.step
  dsimp only
  rw [esch_linear] <;> simp [h]
theorem esch_sparkle (n : Nat) (st : List Spec.Esch.Branch) (h : st.length % 2 = 0) : (Spec.Esch.sparkle n st).length = st.length := by
  unfold Spec.Esch.sparkle
  exact foldl_len _ st.length _ (fun a _ s hs => by rw [esch_step _ _ (by rw [hs]; exact h), hs]) _ rfl
theorem esch_inject (st : List Spec.Esch.Branch) (b : Bytes) : (Spec.Esch.inject st b).length = st.length := by
  unfold Spec.Esch.inject; simp

theorem esch_squeeze (I : Spec.Esch.Instance) : ∀ n (st : List Spec.Esch.Branch), st.length % 2 = 0 → 2 ≤ st.length → (Spec.Esch.squeeze I n st).length = 16 * n
  | 0, _, _, _ => rfl
  | n + 1, st, h, h2 => by
    rw [Spec.Esch.squeeze, List.length_append, esch_squeeze I n _ (by rw [esch_sparkle _ _ h]; exact h) (by rw [esch_sparkle _ _ h]; exact h2)]
    unfold Spec.Esch.rate
    rw [flatten_len _ 8 (fun _ => by rw [List.length_append, le32_length, le32_length]), List.length_take]
    omega

theorem esch (I : Spec.Esch.Instance) (h : I.branches % 2 = 0) (h2 : 2 ≤ I.branches) (m : Bytes) : (Spec.Esch.hash I m).length = 16 * I.outBlocks := by
  unfold Spec.Esch.hash
  dsimp only
  have hf : ∀ l : List Bytes, (l.foldl (fun st b => Spec.Esch.sparkle I.slim (Spec.Esch.inject st b)) (List.replicate I.branches (0, 0))).length = I.branches := by
    intro l
    exact foldl_len _ I.branches l (fun b _ s hs => by rw [esch_sparkle _ _ (by rw [esch_inject, hs]; exact h), esch_inject, hs]) _ (List.length_replicate)
  have hl : ∀ (st : List Spec.Esch.Branch) k b, st.length = I.branches → (Spec.Esch.sparkle I.big (Spec.Esch.inject (Spec.Esch.addConst st k) b)).length = I.branches := by
    intro st k b hs
    have : (Spec.Esch.addConst st k).length = I.branches := by unfold Spec.Esch.addConst; rw [List.length_set, hs]
    rw [esch_sparkle _ _ (by rw [esch_inject, this]; exact h), esch_inject, this]
  rw [esch_squeeze I]
  · rw [hl _ _ _ (hf _)]; exact h
  · rw [hl _ _ _ (hf _)]; exact h2

end Verif.DigestLen
