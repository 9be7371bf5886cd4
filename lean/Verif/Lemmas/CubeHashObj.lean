import Verif.Lemmas.CubeHash
import Verif.Words32
/-
CubeHash: the digest object.
-/
namespace Verif.CubeHash
open Spec.CubeHash (Params roundL rounds absorb)

theorem rounds_succ (n : Nat) (s : List U32) : rounds (n + 1) s = roundL (rounds n s) := by
  unfold rounds
  rw [List.replicate_succ', List.foldl_append]; rfl

theorem rounds_length (n : Nat) (s : List U32) (h : s.length = 32) : (rounds n s).length = 32 := by
  cases n with
  | zero => exact h
  | succ n => rw [rounds_succ]; simp [roundL]

theorem roundLoop (n : Nat) (s : List U32) (h : s.length = 32) : forLoop 0 n (fun x _ => round x) s = rounds n s := by
  induction n with
  | zero => rfl
  | succ n ih => rw [forLoop_succ _ _ _ _ (by omega), ih, rounds_succ, round_eq _ (rounds_length n s h)]

/-- The parameters for which the code implements CubeHash. -/
structure Ok (P : Params) : Prop where
  b0 : 0 < P.b
  b4 : P.b % 4 = 0
  b128 : P.b ≤ 128
  h32 : P.h % 32 = 0
  h1024 : P.h ≤ 1024

structure Cfg (P : Params) (d : Digest) : Prop where
  hhs : d.hs = P.h
  hbs : d.bs = P.b
  hr : d.r = P.r
  hir : d.ir = P.i
  hfr : d.fr = P.f

theorem ingest_eq (P : Params) (ok : Ok P) (d : Digest) (c : Cfg P d) (x : List U32) (hx : x.length = 32) (p q : Bytes) (hp : P.b ≤ p.length) (hq : p.take P.b = q) :
    d.ingest x p = absorb P x q ∧ (d.ingest x p).length = 32 := by
  have hb4 := ok.b4
  have hb := ok.b128
  have hql : q.length = P.b := by rw [← hq, List.length_take]; omega
  unfold Digest.ingest absorb
  rw [c.hbs, c.hr]
  rw [setLoopG (0 : U32) (fun n v => v ^^^ getLE32 p (n * 4)) (P.b / 4) x (by omega), hx]
  rw [roundLoop _ _ (by simp)]
  refine ⟨?_, rounds_length _ _ (by simp)⟩
  congr 1
  unfold Spec.CubeHash.ofBytes Spec.CubeHash.toBytes
  apply List.map_congr_left
  intro i hi
  have hi : i < 32 := List.mem_range.mp hi
  rw [getLE32_xor _ _ _ (by rw [flat32_length]; omega) (by rw [List.length_append, zeros_length]; omega), getLE32_flat _ _ (by omega)]
  by_cases h : i < P.b / 4
  · rw [if_pos h, getLE32_append_left _ _ _ (by omega), ← hq, ← List.take_append_drop P.b p, List.take_append_drop]
    congr 1
    conv_lhs => rw [← List.take_append_drop P.b p]
    rw [getLE32_append_left _ _ _ (by rw [List.length_take]; omega), Nat.mul_comm]
  · rw [if_neg h, show 4 * i = q.length + (4 * i - P.b) by omega, getLE32_append_right, getLE32_zeros]
    exact (BitVec.xor_zero).symm

theorem initRound_eq (P : Params) (d : Digest) (c : Cfg P d) (hs : d.s.length = 32) : d.initRound d.ir = Spec.CubeHash.init P := by
  unfold Digest.initRound Spec.CubeHash.init
  dsimp only
  rw [c.hhs, c.hbs, c.hr, c.hir]
  have e : forLoop 3 32 (fun (x : List U32) n => x.set n 0) (((d.s.set 0 (BitVec.ofNat 32 (P.h / 8))).set 1 (BitVec.ofNat 32 P.b)).set 2 (BitVec.ofNat 32 P.r)) =
      [BitVec.ofNat 32 (P.h / 8), BitVec.ofNat 32 P.b, BitVec.ofNat 32 P.r] ++ List.replicate 29 0 := by
    generalize BitVec.ofNat 32 (P.h / 8) = a0
    generalize BitVec.ofNat 32 P.b = a1
    generalize BitVec.ofNat 32 P.r = a2
    have := forLoop_inv (a := 3) (b := 32) (s := ((d.s.set 0 a0).set 1 a1).set 2 a2) (body := fun (x : List U32) n => x.set n 0)
      (fun k (x : List U32) => x.length = 32 ∧ ∀ i, i < 32 → x.getD i 0 = if i = 0 then a0 else if i = 1 then a1 else if i = 2 then a2 else if i < k then 0 else d.s.getD i 0)
      (by omega) (by
        refine ⟨by simp [hs], fun i hi => ?_⟩
        rw [getD_set, getD_set, getD_set]
        simp only [List.length_set, hs]
        by_cases h0 : i = 0
        · simp [h0]
        by_cases h1 : i = 1
        · simp [h1]
        by_cases h2 : i = 2
        · simp [h2]
        simp [h0, h1, h2, show ¬ 0 = i by omega, show ¬ 1 = i by omega, show ¬ 2 = i by omega, show ¬ i < 3 by omega])
      (by
        rintro k x hk1 hk2 ⟨h1, h2⟩
        refine ⟨by simp [h1], fun i hi => ?_⟩
        rw [getD_set, h2 i hi, h1]
        by_cases e : k = i
        · subst e
          simp [show ¬ k = 0 by omega, show ¬ k = 1 by omega, show ¬ k = 2 by omega, hi]
        · by_cases h : i < k
          · simp [e, h, show i < k + 1 by omega]
          · simp [e, h, show ¬ i < k + 1 by omega])
    obtain ⟨l, g⟩ := this
    rw [eq_L _ l]
    have : ∀ x : List U32, x.length = 32 → x = L (fun i => x.getD i 0) := eq_L
    rw [this ([a0, a1, a2] ++ List.replicate 29 0) (by simp)]
    apply L_ext
    intro i hi
    rw [g i hi]
    interval_cases i <;> rfl
  rw [e, roundLoop _ _ (by simp)]

def St (P : Params) (s : List U32) (m : Bytes) : Prop := s.length = 32 ∧ s = (fullBlocks P.b m).foldl (absorb P) (Spec.CubeHash.init P)

structure Rep (P : Params) (d : Digest) (m : Bytes) : Prop where
  cfg : Cfg P d
  buf : LoopRep P.b P.b (St P) d.s d.x d.nx m

theorem init_length (P : Params) : (Spec.CubeHash.init P).length = 32 := by
  unfold Spec.CubeHash.init; exact rounds_length _ _ (by simp)

theorem reset_rep (P : Params) (d : Digest) (c : Cfg P d) (hs : d.s.length = 32) : Rep P d.reset [] := by
  refine ⟨⟨c.hhs, c.hbs, c.hr, c.hir, c.hfr⟩, ?_⟩
  show LoopRep P.b P.b (St P) (d.initRound d.ir) (zeros d.bs) 0 []
  rw [c.hbs, initRound_eq P d c hs]
  exact LoopRep.init _ _ _ _ ⟨init_length P, by rw [fullBlocks_nil]; rfl⟩

theorem write_rep (P : Params) (ok : Ok P) (d : Digest) (m p : Bytes) (h : Rep P d m) : Rep P (d.write p).1 (m ++ p) := by
  refine ⟨⟨h.cfg.hhs, h.cfg.hbs, h.cfg.hr, h.cfg.hir, h.cfg.hfr⟩, ?_⟩
  show LoopRep P.b P.b (St P) (loopWrite d.bs _ _ _ _ _ _ _).1 (loopWrite d.bs _ _ _ _ _ _ _).2.1 (loopWrite d.bs _ _ _ _ _ _ _).2.2 _
  rw [h.cfg.hbs]
  refine loopWrite_rep P.b P.b ok.b0 (Nat.le_refl _) (St P) _ _ ?_ ?_ (p.length + 1) d.s d.x d.nx m p h.buf (by omega)
  · intro s x m p hs hx _ ht hf _
    obtain ⟨e1, e2⟩ := ingest_eq P ok d h.cfg s hs.1 x _ (by omega) ht
    refine ⟨e2, ?_⟩
    show d.ingest s x = _
    rw [e1, hf, List.foldl_append, ← hs.2]; rfl
  · intro s m p hs _ hf _
    exact ⟨hs.1, by rw [hf]; exact hs.2⟩

theorem padBuf (b nx : Nat) (r : Bytes) (hr : r.length = nx) (hn : nx < b) : (goCopy (zeros b) 0 r).set nx 0x80 = r ++ (0x80 :: zeros (b - 1 - nx)) := by
  have e : goCopy (zeros b) 0 r = r ++ (0 :: zeros (b - 1 - nx)) := by
    unfold goCopy
    rw [List.take_zero, List.nil_append, List.take_of_length_le (by rw [zeros_length]; omega), Nat.zero_add]
    congr 1
    rw [show b = nx + (b - 1 - nx + 1) by omega, zeros_add]
    rw [List.drop_left' (by rw [zeros_length, hr])]
    rw [show nx + (b - 1 - nx + 1) - 1 - nx = b - 1 - nx by omega]; rfl
  rw [e, List.set_append_right _ _ (by omega), hr, Nat.sub_self, List.set_cons_zero]

theorem flat_take (s : List U32) (k : Nat) : (s.take k).flatMap le32 = (s.flatMap le32).take (4 * k) := by
  induction s generalizing k with
  | nil => simp
  | cons a s ih =>
    cases k with
    | zero => rfl
    | succ k =>
      rw [List.take_succ_cons, List.flatMap_cons, List.flatMap_cons, ih, List.take_append, le32_length, show 4 * (k + 1) - 4 = 4 * k by omega]
      rw [List.take_of_length_le (l := le32 a) (by rw [le32_length]; omega)]

theorem checkSum_eq (P : Params) (ok : Ok P) (d : Digest) (m : Bytes) (h : Rep P d m) : d.checkSum = Spec.CubeHash.hash P m := by
  have hnl := h.buf.nx_lt ok.b0
  have hnx : d.nx = (restBlock P.b m).length := h.buf.hnx
  have hmod : d.nx = m.length % P.b := by rw [hnx, restBlock_length]
  unfold Digest.checkSum Spec.CubeHash.hash
  dsimp only
  rw [h.cfg.hbs, h.cfg.hfr, h.cfg.hhs, h.buf.pend, padBuf P.b d.nx _ hnx.symm hnl]
  have hlen : (restBlock P.b m ++ (0x80 :: zeros (P.b - 1 - d.nx)) : Bytes).length = P.b := by
    rw [List.length_append, List.length_cons, zeros_length, ← hnx]; omega
  obtain ⟨e1, e2⟩ := ingest_eq P ok d h.cfg d.s h.buf.st.1 _ _ (by rw [hlen]) (List.take_of_length_le (by rw [hlen]))
  have e3 : (fullBlocks P.b (Spec.CubeHash.pad P m)).foldl (absorb P) (Spec.CubeHash.init P) = d.ingest d.s (restBlock P.b m ++ (0x80 :: zeros (P.b - 1 - d.nx))) := by
    unfold Spec.CubeHash.pad
    rw [← hmod]
    obtain ⟨f1, _⟩ := K12.fullBlocks_rest m (0x80 :: zeros (P.b - 1 - d.nx)) P.b ok.b0
    rw [fullBlocks_one _ _ ok.b0 hlen] at f1
    rw [f1, List.foldl_append, ← h.buf.st.2, e1]; rfl
  rw [e3]
  rw [roundLoop _ _ (by rw [List.length_set, e2])]
  have hl := rounds_length P.f ((d.ingest d.s (restBlock P.b m ++ (0x80 :: zeros (P.b - 1 - d.nx)))).set 31
    ((d.ingest d.s (restBlock P.b m ++ (0x80 :: zeros (P.b - 1 - d.nx)))).getD 31 0 ^^^ 1)) (by rw [List.length_set, e2])
  generalize rounds P.f _ = y at hl ⊢
  unfold uint32sToBytes Spec.CubeHash.toBytes
  have := ok.h32
  rw [put32Loop, flat_take, show 4 * (P.h / 32) = P.h / 8 by omega]

/-! Serialisation. -/

theorem marshal_eq (P : Params) (ok : Ok P) (d : Digest) (m : Bytes) (h : Rep P d m) : marshal d = d.s.flatMap le32 ++ (BitVec.ofNat 8 d.nx :: restBlock P.b m) := by
  have hl := h.buf.st.1
  unfold marshal
  dsimp only
  have : ∀ n, n ≤ 32 → forLoop 0 n (fun buf n => goCopy buf (n * 4) (le32 (d.s.getD n 0))) (zeros 129) = (d.s.take n).flatMap le32 ++ zeros (129 - 4 * n) := by
    intro n
    induction n with
    | zero => intro _; rfl
    | succ n ih =>
      intro hn
      rw [forLoop_succ _ _ _ _ (by omega), ih (by omega)]
      have hlen : ((d.s.take n).flatMap le32).length = n * 4 := by rw [flat32_length, List.length_take]; omega
      have e : (d.s.take (n + 1)).flatMap le32 = (d.s.take n).flatMap le32 ++ le32 (d.s.getD n 0) := by
        rw [List.take_succ_eq_append_getElem (by omega), List.flatMap_append]
        congr 1
        simp [List.getD_eq_getElem?_getD, show n < d.s.length by omega]
      rw [e]
      unfold goCopy
      rw [List.take_left' hlen]
      rw [List.length_append, hlen, zeros_length, List.take_of_length_le (l := le32 _) (by rw [le32_length]; omega)]
      congr 1
      rw [le32_length, ← List.drop_drop, List.drop_left' hlen]
      unfold zeros
      rw [List.drop_replicate]
      congr 1
  rw [this 32 (by omega), List.take_of_length_le (by omega), h.buf.pend]
  rw [List.set_append_right _ _ (by rw [flat32_length]; omega), flat32_length, hl, List.append_assoc]; rfl

/-- Restoring into any object of the same configuration gives the same abstract state. -/
theorem unmarshal_marshal (P : Params) (ok : Ok P) (d r : Digest) (m m' : Bytes) (h : Rep P d m) (hr : Rep P r m') :
    ∃ d', unmarshal r (marshal d) = some d' ∧ Rep P d' m := by
  have hl := h.buf.st.1
  have hnl := h.buf.nx_lt ok.b0
  have hb := ok.b128
  have hnx : d.nx = (restBlock P.b m).length := h.buf.hnx
  rw [marshal_eq P ok d m h]
  have hfl : (d.s.flatMap le32).length = 128 := by rw [flat32_length, hl]
  have hat : (at8 (d.s.flatMap le32 ++ (BitVec.ofNat 8 d.nx :: restBlock P.b m)) 128).toNat = d.nx := by
    rw [at8_append_right _ _ _ (by omega), hfl, Nat.sub_self]
    show (BitVec.ofNat 8 d.nx).toNat = _
    rw [BitVec.toNat_ofNat]; omega
  unfold unmarshal
  rw [if_neg (by rw [List.length_append, hfl, List.length_cons]; omega)]
  dsimp only
  rw [hat, if_neg (by rw [hr.cfg.hbs, List.length_append, hfl, List.length_cons]; omega)]
  refine ⟨_, rfl, ⟨⟨hr.cfg.hhs, hr.cfg.hbs, hr.cfg.hr, hr.cfg.hir, hr.cfg.hfr⟩, ?_⟩⟩
  have es : forLoop 0 32 (fun (x : List U32) n => x.set n (getLE32 (d.s.flatMap le32 ++ (BitVec.ofNat 8 d.nx :: restBlock P.b m)) (n * 4))) r.s = d.s := by
    rw [setLoopG (0 : U32) (fun n _ => getLE32 (d.s.flatMap le32 ++ (BitVec.ofNat 8 d.nx :: restBlock P.b m)) (n * 4)) 32 r.s (by rw [hr.buf.st.1]), hr.buf.st.1]
    conv_rhs => rw [eq_L d.s hl]
    apply L_ext
    intro i hi
    rw [if_pos hi, getLE32_append_left _ _ _ (by omega), Nat.mul_comm, getLE32_flat _ _ (by omega)]
  have ed : ((d.s.flatMap le32 ++ (BitVec.ofNat 8 d.nx :: restBlock P.b m)).drop 129).take d.nx = restBlock P.b m := by
    rw [show 129 = 128 + 1 from rfl, ← List.drop_drop, List.drop_left' hfl, List.drop_one, List.tail_cons, hnx, List.take_length]
  dsimp only
  rw [es, ed]
  have hxl := hr.buf.xl
  refine ⟨h.buf.st, ?_, hnx, ?_⟩
  · rw [goCopy_length _ _ _ (by omega), hxl]
  · unfold goCopy
    rw [List.take_zero, List.nil_append, List.take_of_length_le (l := restBlock P.b m) (by omega), hnx, List.take_left' rfl]

end Verif.CubeHash
