import Verif.Lemmas.Skeins
import Verif.Props.C39_Skein512
/-
C39: package skeins.
-/
namespace Verif.Props
open Verif.Threefish
open Verif.Skein (T1)

/-- What the objects of package skeins compute: every complete block is absorbed as a block that is not
the last, and the rest of the message (possibly nothing) is the last block. -/
def skeinsH (k : Skeins.Code) (hs : Nat) (iv : List U64) (m : Bytes) : Bytes :=
  Skeins.checkSum k ⟨(fullBlocks (8 * k.n) m).foldl (Skeins.absorb k) (iv, 0), restBlock (8 * k.n) m, m.length % (8 * k.n), hs, iv⟩

/-- The streaming part, for every history and without any restriction: the digest is a function of the
bytes written since the last `Reset`, however they were divided. -/
theorem C39_skeins_streaming (k : Skeins.Code) (hk : 0 < k.n) (hs : Nat) (iv : List U64) :
    Refines (Skeins.impl k) (Skeins.new k hs iv) { H := skeinsH k hs iv, size := hs, blockSize := 8 * k.n } := by
  have hB : 0 < 8 * k.n := by omega
  refine Sim.refines (R := fun d m => d.hs = hs ∧ d.initVal = iv ∧ BufRepr (8 * k.n) (Skeins.absorb k) (iv, 0) d.st d.x d.nx m) ⟨?_, ?_, ?_, ?_, ?_⟩
    ⟨rfl, rfl, BufRepr.init _ _ _ (zeros_length _)⟩
  · rintro d m p ⟨a, b, c⟩
    exact ⟨_, rfl, a, b, bufWrite_spec _ hB _ _ _ _ _ _ c⟩
  · rintro d m b ⟨a1, a2, c⟩
    refine ⟨d, ?_, a1, a2, c⟩
    show some (d, b ++ Skeins.checkSum k d) = some (d, b ++ skeinsH k hs iv m)
    congr 3
    unfold skeinsH Skeins.checkSum
    dsimp only
    have hp := c.pend
    rw [c.nx_eq] at hp
    rw [c.state, c.nx_eq, a1, hp, List.take_of_length_le (l := restBlock (8 * k.n) m)]
    rw [restBlock_length]; exact Nat.le_refl _
  · rintro d m ⟨a, b, c⟩
    refine ⟨a, b, ?_⟩
    have : (Skeins.reset k d).st = (iv, 0) := by unfold Skeins.reset; dsimp only; rw [b]
    show BufRepr (8 * k.n) (Skeins.absorb k) (iv, 0) (Skeins.reset k d).st (zeros (8 * k.n)) 0 []
    rw [this]
    exact BufRepr.init _ _ _ (zeros_length _)
  · rintro d m ⟨a, -⟩; exact a
  · intros; rfl

/-- The messages on which the package agrees with the standard: empty, or not a whole number of blocks. -/
def Ragged (B : Nat) (m : Bytes) : Prop := m = [] ∨ m.length % B ≠ 0

theorem ragged_blocks {B : Nat} (hB : 0 < B) {m : Bytes} (h : Ragged B m) : m.length / B = (m.length - 1) / B := by
  rcases h with rfl | h
  · simp
  · have h1 := Nat.div_add_mod m.length B
    have h2 := Nat.mod_lt m.length hB
    rw [Nat.mul_comm] at h1
    symm
    apply Nat.div_eq_of_lt_le
    · omega
    · rw [Nat.add_mul, Nat.one_mul]; omega

theorem skeins_fold {k : Skeins.Code} (h : k.Std) (hn : 0 < k.n) (G : List U64) (hG : G.length = k.n) (M : Bytes)
    (hM : M.length < 2 ^ 64) (j : Nat) (hj : j ≤ (M.length - 1) / (8 * k.n)) :
    (List.range j).foldl (fun st i => Skeins.absorb k st ((M.drop (i * (8 * k.n))).take (8 * k.n))) (G, 0) =
      ((List.range j).foldl (Skein.sstep k.n M 48 ((M.length - 1) / (8 * k.n) + 1)) G, BitVec.ofNat 64 j) := by
  induction j with
  | zero => rfl
  | succ j ih =>
    have hq := Nat.div_mul_le_self (M.length - 1) (8 * k.n)
    have hj1 : (j + 1) * (8 * k.n) ≤ (M.length - 1) / (8 * k.n) * (8 * k.n) := Nat.mul_le_mul_right _ hj
    have hle : (j + 1) * (8 * k.n) ≤ M.length := by omega
    have hj2 : (j + 1) * (8 * k.n) = j * (8 * k.n) + 8 * k.n := by rw [Nat.add_mul, Nat.one_mul]
    have hjl : j < 2 ^ 64 := by
      have := Nat.le_mul_of_pos_right j (show 0 < 8 * k.n by omega)
      omega
    rw [List.range_succ, List.foldl_append, List.foldl_append, ih (by omega)]
    simp only [List.foldl_cons, List.foldl_nil]
    have hblk : (M.drop (j * (8 * k.n))).take (8 * k.n) =
        ((M ++ zeros (((M.length - 1) / (8 * k.n) + 1) * (8 * k.n) - M.length)).drop (j * (8 * k.n))).take (8 * k.n) := by
      rw [List.drop_append_of_le_length (by omega), List.take_append_of_le_length (by rw [List.length_drop]; omega)]
    unfold Skeins.absorb
    dsimp only
    have e : BitVec.ofNat 64 j + 1 = BitVec.ofNat 64 (j + 1) := by rw [BitVec.ofNat_add]; rfl
    rw [e]
    have hu := Skeins.ubi_spec h _ (Skein.sfold_length k.n M 48 ((M.length - 1) / (8 * k.n) + 1) G hG j) (j + 1) 0
      (if BitVec.ofNat 64 j = 0 then 224 else 96) 48 (decide (j = 0)) false ((M.drop (j * (8 * k.n))).take (8 * k.n)) (by
        by_cases h0 : j = 0
        · subst h0
          rw [if_pos (by decide)]; exact Skeins.etype_eq.1
        · rw [if_neg, show decide (j = 0) = false from decide_eq_false h0]
          · exact Skeins.etype_eq.2.1
          · intro hc
            have := congrArg BitVec.toNat hc
            rw [BitVec.toNat_ofNat, Nat.mod_eq_of_lt hjl] at this
            exact h0 this) (by decide) (by omega)
    refine congrArg (fun z => (z, BitVec.ofNat 64 (j + 1))) ?_
    rw [hu, Skein.sstep_def (i := j), hblk, Nat.min_eq_right hle, Nat.add_zero,
      show decide (j + 1 = (M.length - 1) / (8 * k.n) + 1) = false from decide_eq_false (by omega)]
    rfl

/-- The digest of such a message is Skein's. -/
theorem skeinsH_ragged {k : Skeins.Code} (h : k.Std) (hn : 1 < k.n) (hs : Nat) (iv : List U64) (hl : iv.length = k.n) (hhs : hs ≤ 8 * k.n)
    (m : Bytes) (hm : m.length < 2 ^ 64) (hr : Ragged (8 * k.n) m) :
    skeinsH k hs iv m = Spec.Skein.output k.n (Spec.Skein.ubi k.n iv m 48) hs := by
  have hB : 0 < 8 * k.n := by omega
  have hcount := ragged_blocks hB hr
  have hdm := Nat.div_add_mod m.length (8 * k.n)
  have hml := Nat.mod_lt m.length hB
  rw [Nat.mul_comm] at hdm
  have hfold : (fullBlocks (8 * k.n) m).foldl (Skeins.absorb k) (iv, 0) =
      ((List.range ((m.length - 1) / (8 * k.n))).foldl (Skein.sstep k.n m 48 ((m.length - 1) / (8 * k.n) + 1)) iv,
        BitVec.ofNat 64 ((m.length - 1) / (8 * k.n))) := by
    unfold fullBlocks
    rw [List.foldl_map, hcount]
    exact skeins_fold h (by omega) iv hl m hm _ (Nat.le_refl _)
  have hjl : m.length / (8 * k.n) < 2 ^ 64 := by
    have := Nat.div_le_self m.length (8 * k.n); omega
  have hrest : (restBlock (8 * k.n) m).take (m.length % (8 * k.n)) = m.drop (m.length / (8 * k.n) * (8 * k.n)) := by
    rw [List.take_of_length_le (by rw [restBlock_length]; exact Nat.le_refl _)]; rfl
  -- the last message block
  have hlast : ∀ (et : Nat) (f : Bool), BitVec.ofNat 64 et <<< 55 = T1 48 f true → f = decide (m.length / (8 * k.n) = 0) →
      Skeins.ubi k ((List.range ((m.length - 1) / (8 * k.n))).foldl (Skein.sstep k.n m 48 ((m.length - 1) / (8 * k.n) + 1)) iv)
        (BitVec.ofNat 64 ((m.length - 1) / (8 * k.n))) et (m.length % (8 * k.n))
        ((restBlock (8 * k.n) m).take (m.length % (8 * k.n)) ++ zeros (8 * k.n - m.length % (8 * k.n))) = Spec.Skein.ubi k.n iv m 48 := by
    intro et f he hf
    rw [Skeins.ubi_spec h _ (Skein.sfold_length _ _ _ _ _ hl _) _ _ et 48 f true _ he (by decide) (by rw [← hcount]; omega)]
    rw [Skein.ubi_unfold _ (by omega), List.range_succ, List.foldl_append]
    simp only [List.foldl_cons, List.foldl_nil]
    rw [Skein.sstep_def (i := (m.length - 1) / (8 * k.n)), hrest, ← hcount, hf]
    have e1 : m.length / (8 * k.n) * (8 * k.n) + m.length % (8 * k.n) = min m.length ((m.length / (8 * k.n) + 1) * (8 * k.n)) := by
      rw [Nat.add_mul, Nat.one_mul]; omega
    rw [e1, show decide (m.length / (8 * k.n) + 1 = m.length / (8 * k.n) + 1) = true from decide_eq_true rfl]
    congr 1
    rw [List.drop_append_of_le_length (by omega)]
    have e2 : (m.length / (8 * k.n) + 1) * (8 * k.n) - m.length = 8 * k.n - m.length % (8 * k.n) := by
      rw [Nat.add_mul, Nat.one_mul]; omega
    rw [e2]
    symm
    apply List.take_of_length_le
    rw [List.length_append, zeros_length, List.length_drop]
    omega
  have hmsg : (if BitVec.ofNat 64 ((m.length - 1) / (8 * k.n)) = 0 then
      Skeins.ubi k ((List.range ((m.length - 1) / (8 * k.n))).foldl (Skein.sstep k.n m 48 ((m.length - 1) / (8 * k.n) + 1)) iv)
        (BitVec.ofNat 64 ((m.length - 1) / (8 * k.n))) 480 (m.length % (8 * k.n))
        ((restBlock (8 * k.n) m).take (m.length % (8 * k.n)) ++ zeros (8 * k.n - m.length % (8 * k.n)))
      else
      Skeins.ubi k ((List.range ((m.length - 1) / (8 * k.n))).foldl (Skein.sstep k.n m 48 ((m.length - 1) / (8 * k.n) + 1)) iv)
        (BitVec.ofNat 64 ((m.length - 1) / (8 * k.n))) 352 (m.length % (8 * k.n))
        ((restBlock (8 * k.n) m).take (m.length % (8 * k.n)) ++ zeros (8 * k.n - m.length % (8 * k.n)))) = Spec.Skein.ubi k.n iv m 48 := by
    split
    · next h0 =>
      have := congrArg BitVec.toNat h0
      rw [BitVec.toNat_ofNat, ← hcount, Nat.mod_eq_of_lt hjl] at this
      exact hlast 480 true Skeins.etype_eq.2.2.1 (decide_eq_true this).symm
    · next h0 =>
      refine hlast 352 false Skeins.etype_eq.2.2.2.1 (decide_eq_false ?_).symm
      intro hc
      apply h0
      rw [← hcount, hc]
      rfl
  unfold skeinsH Skeins.checkSum
  dsimp only
  rw [hfold]
  dsimp only
  rw [hmsg]
  have hul := Skein.ubi_length k.n (by omega) iv m 48
  generalize Spec.Skein.ubi k.n iv m 48 = G at *
  -- the output block
  have h8 : (le64 0#64).length = 8 := rfl
  have hout := Skeins.ubi_spec h G hul 0 8 510 63 true true (zeros (8 * k.n)) Skeins.etype_eq.2.2.2.2 (by decide) (by omega)
  have hz : le64 0#64 ++ zeros (8 * k.n - (le64 0#64).length) = zeros (8 * k.n) := by
    rw [h8, show le64 0#64 = zeros 8 by decide]
    unfold zeros
    rw [List.replicate_append_replicate]
    congr 1
    omega
  have hub : Spec.Skein.ubi k.n G (le64 0#64) 63 = Skeins.ubi k G 0 510 8 (zeros (8 * k.n)) := by
    rw [Skein.ubi_short k.n (by omega) G _ 63 (by rw [h8]; omega), hz, h8]
    rw [show (0 : U64) = BitVec.ofNat 64 0 from rfl, hout, Nat.zero_mul, Nat.zero_add]
  rw [← hub]
  have hlen : ((Spec.Skein.ubi k.n G (le64 0#64) 63).flatMap le64).length = 8 * k.n := by
    have h := Skein.ubi_length k.n (by omega) G (le64 0#64) 63
    have : ∀ l : List U64, (l.flatMap le64).length = 8 * l.length := by
      intro l
      induction l with
      | nil => rfl
      | cons a l ih => rw [List.flatMap_cons, List.length_append, ih, List.length_cons]; simp [le64]; omega
    rw [this, h]
  generalize hU : (Spec.Skein.ubi k.n G (le64 0#64) 63).flatMap le64 = U at hlen ⊢
  have hcopy : goCopy (zeros hs) 0 U = U.take hs := by
    unfold goCopy
    rw [List.take_zero, List.nil_append, Nat.sub_zero, zeros_length, Nat.zero_add, List.drop_of_length_le, List.append_nil]
    rw [zeros_length]; omega
  rw [hcopy]
  unfold Spec.Skein.output
  by_cases h0 : hs = 0
  · subst h0; simp
  · have e : (hs + 8 * k.n - 1) / (8 * k.n) = 1 := Nat.div_eq_of_lt_le (by omega) (by omega)
    rw [e]
    simp only [List.range_one, List.flatMap_cons, List.flatMap_nil, List.append_nil]
    rw [show BitVec.ofNat 64 0 = 0#64 from rfl, hU]

/-- Histories in which every `Sum` is asked for a message the package gets right. -/
def RaggedSum (B : Nat) (ps : List Bytes) : Prop := ps.flatten.length < 2 ^ 64 ∧ Ragged B ps.flatten

theorem skeins_refines {k : Skeins.Code} (h : k.Std) (hn : 1 < k.n) (hs : Nat) (iv : List U64) (hl : iv.length = k.n) (hhs : hs ≤ 8 * k.n)
    (H : Bytes → Bytes) (hH : ∀ m, H m = Spec.Skein.output k.n (Spec.Skein.ubi k.n iv m 48) hs) :
    RefinesOn (SumsOn (RaggedSum (8 * k.n)) []) (Skeins.impl k) (Skeins.new k hs iv) { H := H, size := hs, blockSize := 8 * k.n } := by
  have hsim := (C39_skeins_streaming k (by omega) hs iv).sim
  refine refinesOn_sums_of_sim _ _ _ _ (fun s ps => Behaves (Skeins.impl k) { H := skeinsH k hs iv, size := hs, blockSize := 8 * k.n } s ps.flatten)
    (C39_skeins_streaming k (by omega) hs iv) ?_ ?_ ?_ ?_ ?_
  · intro s ps p hR
    obtain ⟨s', a, b⟩ := hsim.write s _ p hR
    refine ⟨s', a, ?_⟩
    rw [List.flatten_append, List.flatten_cons, List.flatten_nil, List.append_nil]
    exact b
  · rintro s ps b hR ⟨h1, h2⟩
    obtain ⟨s', a, c⟩ := hsim.sum s _ b hR
    refine ⟨s', ?_, c⟩
    rw [a]
    show some (s', b ++ skeinsH k hs iv ps.flatten) = some (s', b ++ H ps.flatten)
    rw [skeinsH_ragged h hn hs iv hl hhs _ h1 h2, hH]
  · intro s ps hR; exact hsim.reset s _ hR
  · intro s ps hR; exact hsim.size s _ hR
  · intro s ps hR; exact hsim.blockSize s _ hR

/-- Package skeins agrees with Skein-512 except on messages that are a positive whole number of blocks. -/
theorem C39_skeins_partial :
    RefinesOn (SumsOn (RaggedSum 64) []) (Skeins.impl Skeins.code512) Skeins.new224 (skeinSpec 8 28 none []) ∧
    RefinesOn (SumsOn (RaggedSum 64) []) (Skeins.impl Skeins.code512) Skeins.new256 (skeinSpec 8 32 none []) ∧
    RefinesOn (SumsOn (RaggedSum 64) []) (Skeins.impl Skeins.code512) Skeins.new384 (skeinSpec 8 48 none []) ∧
    RefinesOn (SumsOn (RaggedSum 64) []) (Skeins.impl Skeins.code512) Skeins.new512 (skeinSpec 8 64 none []) := by
  refine ⟨?_, ?_, ?_, ?_⟩
  · exact skeins_refines Skeins.code512_std (by decide) 28 _ rfl (by decide) _ (fun m => by unfold Spec.Skein.skein; rw [iv224_eq]; rfl)
  · exact skeins_refines Skeins.code512_std (by decide) 32 _ rfl (by decide) _ (fun m => by unfold Spec.Skein.skein; rw [iv256_eq]; rfl)
  · exact skeins_refines Skeins.code512_std (by decide) 48 _ rfl (by decide) _ (fun m => by unfold Spec.Skein.skein; rw [iv384_eq]; rfl)
  · exact skeins_refines Skeins.code512_std (by decide) 64 _ rfl (by decide) _ (fun m => by unfold Spec.Skein.skein; rw [iv512_eq]; rfl)

/-- `NewHS256(hs, iv)`: the message and output stages of Skein-256 from the given chaining value. -/
theorem C39_skeins_hs256_partial (hs : Nat) (iv : List U64) (hl : iv.length = 4) (hhs : hs ≤ 32) :
    RefinesOn (SumsOn (RaggedSum 32) []) (Skeins.impl Skeins.code256) (Skeins.newHS256 hs iv)
      { H := fun m => Spec.Skein.output 4 (Spec.Skein.ubi 4 iv m 48) hs, size := hs, blockSize := 32 } :=
  skeins_refines Skeins.code256_std (by decide) hs iv hl hhs _ (fun _ => rfl)

/-- At one full block the package is not Skein: it appends an empty last block. -/
theorem C39_skeins_full_block_violated :
    (Skeins.impl Skeins.code512).run Skeins.new512 [.write (zeros 64), .sum []] ≠
      (skeinSpec 8 64 none []).run [] [.write (zeros 64), .sum []] := by
  have h1 := C39_skeins_streaming Skeins.code512 (by decide) 64 Skeins.initVal512 [.write (zeros 64), .sum []]
  unfold Skeins.new512
  rw [h1]
  have hc : ∀ (c et ex ty : Nat) (f g : Bool) (G : List U64) (x : Bytes), G.length = 8 → BitVec.ofNat 64 et <<< 55 = T1 ty f g → ty < 64 → c * 64 + ex < 2 ^ 64 →
      Skeins.ubi Skeins.code512 G (BitVec.ofNat 64 c) et ex x = ubiBlockL code512 G (Spec.Skein.tweak (c * 64 + ex) ty f g) x := by
    intro c et ex ty f g G x hG he ht hp
    rw [Skeins.ubi_spec Skeins.code512_std G hG c ex et ty f g x he ht hp]
    exact ubiBlockL_eq code512_std within512 G hG _ _
  have hlen : ∀ G t b, (ubiBlockL code512 G t b).length = 8 → True := fun _ _ _ _ => trivial
  have hH : skeinsH Skeins.code512 64 Skeins.initVal512 (zeros 64) =
      goCopy (zeros 64) 0 ((ubiBlockL code512 (ubiBlockL code512 (ubiBlockL code512 Skeins.initVal512 (Spec.Skein.tweak 64 48 true false) (zeros 64))
        (Spec.Skein.tweak 64 48 false true) (zeros 64)) (Spec.Skein.tweak 8 63 true true) (zeros 64)).flatMap le64) := by
    have hfb : fullBlocks (8 * Skeins.code512.n) (zeros 64) = [zeros 64] := by decide +kernel
    have hrb : restBlock (8 * Skeins.code512.n) (zeros 64) = [] := by decide +kernel
    have a0 : Skeins.absorb Skeins.code512 (Skeins.initVal512, 0) (zeros 64) =
        (ubiBlockL code512 Skeins.initVal512 (Spec.Skein.tweak 64 48 true false) (zeros 64), BitVec.ofNat 64 1) := by
      have := hc 1 224 0 48 true false Skeins.initVal512 (zeros 64) rfl Skeins.etype_eq.1 (by decide) (by decide)
      unfold Skeins.absorb
      dsimp only
      rw [if_pos rfl, show (0 + 1 : U64) = BitVec.ofNat 64 1 from rfl, this]
    have l1 : (ubiBlockL code512 Skeins.initVal512 (Spec.Skein.tweak 64 48 true false) (zeros 64)).length = 8 := by
      rw [← ubiBlockL_eq code512_std within512 Skeins.initVal512 rfl]; exact Skein.ubiBlock_length _ _ _ _
    have l2 : ∀ t b, (ubiBlockL code512 (ubiBlockL code512 Skeins.initVal512 (Spec.Skein.tweak 64 48 true false) (zeros 64)) t b).length = 8 := by
      intro t b
      rw [← ubiBlockL_eq code512_std within512 _ l1]; exact Skein.ubiBlock_length _ _ _ _
    unfold skeinsH
    rw [hfb, hrb, List.foldl_cons, List.foldl_nil, a0]
    unfold Skeins.checkSum
    dsimp only
    rw [if_neg (by decide), show (zeros 64).length % (8 * Skeins.code512.n) = 0 from by decide +kernel]
    rw [hc 1 352 0 48 false true _ _ l1 Skeins.etype_eq.2.2.2.1 (by decide) (by decide)]
    rw [show (0 : U64) = BitVec.ofNat 64 0 from rfl, hc 0 510 8 63 true true _ _ (l2 _ _) Skeins.etype_eq.2.2.2.2 (by decide) (by decide)]
    rfl
  intro h
  have hb : skeinsH Skeins.code512 64 Skeins.initVal512 (zeros 64) = Spec.Skein.skein 8 64 none [] (zeros 64) := by
    simpa [HashSpec.run, skeinSpec] using h
  rw [hH, skein8_short 64 (by decide) _ rfl iv512_eq (zeros 64) (by simp)] at hb
  revert hb
  set_option maxRecDepth 100000 in
  decide +kernel

-- the hypotheses can be met
example : SumsOn (RaggedSum 64) [] [.sum [], .write [1], .sum [], .write (zeros 63), .write [3], .sum []] := by
  simp [SumsOn, RaggedSum, Ragged]

end Verif.Props
