import Verif.Model.Panama
import Verif.Spec.Panama
import Verif.Lemmas.LSH
/-
PANAMA: the state update with the ring buffer.
-/
namespace Verif.Panama
open Spec.Panama (st Buf State)
open LSH (getD_set' getD_map_range)

theorem rotl_go32 (t : U32) (n : Nat) (h2 : n < 32) : t.rotateLeft n = (t <<< n ||| t >>> (32 - n)) := by
  rw [BitVec.rotateLeft_def, Nat.mod_eq_of_lt h2]
theorem rotl_0 (t : U32) : t.rotateLeft 0 = t := by rw [BitVec.rotateLeft_def]; simp [BitVec.ushiftRight_eq_zero (x := t) (n := 32) (by omega)]

theorem gamma_eq (s : List U32) : gammaT (fun i => s.getD i 0) = Spec.Panama.gamma s := rfl
theorem theta_eq (s : List U32) : thetaT (fun i => s.getD i 0) = Spec.Panama.theta s := rfl
theorem pi_eq (s : List U32) : piT (fun i => s.getD i 0) = Spec.Panama.pi s := by
  show _ = [(s.getD 0 0).rotateLeft 0, (s.getD 7 0).rotateLeft 1, (s.getD 14 0).rotateLeft 3, (s.getD 4 0).rotateLeft 6, (s.getD 11 0).rotateLeft 10, (s.getD 1 0).rotateLeft 15,
    (s.getD 8 0).rotateLeft 21, (s.getD 15 0).rotateLeft 28, (s.getD 5 0).rotateLeft 4, (s.getD 12 0).rotateLeft 13, (s.getD 2 0).rotateLeft 23, (s.getD 9 0).rotateLeft 2,
    (s.getD 16 0).rotateLeft 14, (s.getD 6 0).rotateLeft 27, (s.getD 13 0).rotateLeft 9, (s.getD 3 0).rotateLeft 24, (s.getD 10 0).rotateLeft 8]
  rw [rotl_0]
  rfl

theorem bufferUpdate_eq (q : Nat → U32) (e24 e31 : Nat) (buf : List U32) (hl : buf.length = 256) (h1 : e24 < 32) (h2 : e31 < 32) (hne : e24 ≠ e31) :
    (bufferUpdate q (8 * e24) (8 * e31) buf).length = 256 ∧ ∀ e i, e < 32 → i < 8 → (bufferUpdate q (8 * e24) (8 * e31) buf).getD (8 * e + i) 0 =
      if e = e24 then buf.getD (8 * e24 + i) 0 ^^^ buf.getD (8 * e31 + (i + 2) % 8) 0 else if e = e31 then buf.getD (8 * e31 + i) 0 ^^^ q i else buf.getD (8 * e + i) 0 := by
  have h := forLoop_inv (P := fun n (b : List U32) => b.length = 256 ∧ ∀ e i, e < 32 → i < 8 → b.getD (8 * e + i) 0 =
      if e = e24 ∧ i < n then buf.getD (8 * e24 + i) 0 ^^^ buf.getD (8 * e31 + (i + 2) % 8) 0 else if e = e31 ∧ (i + 6) % 8 < n then buf.getD (8 * e31 + i) 0 ^^^ q i else buf.getD (8 * e + i) 0)
    (a := 0) (b := 8) (s := buf) (body := fun b k =>
    let i := (k + 2) % 8
    let b := b.set (8 * e24 + k) (b.getD (8 * e24 + k) 0 ^^^ b.getD (8 * e31 + i) 0)
    b.set (8 * e31 + i) (b.getD (8 * e31 + i) 0 ^^^ q i)) (by omega)
    ⟨hl, fun e i _ _ => by rw [if_neg (by omega), if_neg (by omega)]⟩ (by
      intro k b _ hk ⟨hbl, hb⟩
      refine ⟨by dsimp only; rw [List.length_set, List.length_set]; exact hbl, ?_⟩
      intro e i he hi
      dsimp only
      rw [getD_set', getD_set', getD_set', List.length_set, hbl]
      have b1 := hb e24 k h1 hk
      have b2 := hb e31 ((k + 2) % 8) h2 (by omega)
      rw [if_neg (by omega), if_neg (by omega)] at b1
      rw [if_neg (by omega), if_neg (by omega)] at b2
      by_cases c1 : e = e24
      · subst c1
        rw [if_neg (by omega)]
        by_cases c2 : i = k
        · subst c2; rw [if_pos (by omega), b1, b2, if_pos ⟨rfl, by omega⟩]
        · rw [if_neg (by omega), hb e i he hi]
          by_cases c3 : i < k
          · rw [if_pos ⟨rfl, c3⟩, if_pos ⟨rfl, by omega⟩]
          · rw [if_neg (by omega), if_neg (by omega), if_neg (by omega), if_neg (by omega)]
      · by_cases c2 : e = e31
        · subst c2
          by_cases c3 : i = (k + 2) % 8
          · rw [if_pos (by omega), if_neg (by omega), b2, if_neg (by omega), if_pos ⟨rfl, by omega⟩, c3]
          · rw [if_neg (by omega), if_neg (by omega), hb e i he hi, if_neg (by omega)]
            by_cases c4 : (i + 6) % 8 < k
            · rw [if_pos ⟨rfl, c4⟩, if_neg (by omega), if_pos ⟨rfl, by omega⟩]
            · rw [if_neg (by omega), if_neg (by omega), if_neg (by omega)]
        · rw [if_neg (by omega), if_neg (by omega), hb e i he hi, if_neg (by omega), if_neg (by omega), if_neg (by omega), if_neg (by omega)])
  refine ⟨h.1, fun e i he hi => ?_⟩
  have := h.2 e i he hi
  unfold bufferUpdate
  rw [this]
  by_cases c1 : e = e24
  · rw [if_pos ⟨c1, by omega⟩, if_pos c1]
  · rw [if_neg (by omega), if_neg c1]
    by_cases c2 : e = e31
    · rw [if_pos ⟨c2, by omega⟩, if_pos c2]
    · rw [if_neg (by omega), if_neg c2]

/-- The ring buffer holds the stages, stage 0 at the pointer. -/
structure Rel (s : List U32) (buffer : List U32) (ptr : U32) (S : State) : Prop where
  a : s = S.a
  sl : s.length = 17
  bl : buffer.length = 256
  ring : ∃ e, e < 32 ∧ ptr = BitVec.ofNat 32 (8 * e) ∧ ∀ j i, j < 32 → i < 8 → S.b j i = buffer.getD (8 * ((e + j) % 32) + i) 0

theorem ptrs : ∀ e, e < 32 → ((BitVec.ofNat 32 (8 * e) - 64 : U32) &&& 248) = BitVec.ofNat 32 (8 * ((e + 24) % 32)) ∧ ((BitVec.ofNat 32 (8 * e) - 8 : U32) &&& 248) = BitVec.ofNat 32 (8 * ((e + 31) % 32)) ∧
    (BitVec.ofNat 32 (8 * e) ^^^ (128 : U32)) = BitVec.ofNat 32 (8 * ((e + 16) % 32)) ∧ ((BitVec.ofNat 32 (8 * e) + 32 : U32) &&& 248) = BitVec.ofNat 32 (8 * ((e + 4) % 32)) := by decide +kernel

theorem rho_eq (s : List U32) (l b l' b' : Nat → U32) (hl : ∀ i, i < 8 → l i = l' i) (hb : ∀ i, i < 8 → b i = b' i) :
    (((Spec.Panama.theta (Spec.Panama.pi (Spec.Panama.gamma s))).getD 0 0 ^^^ 1) :: ((List.range 8).map fun i => (Spec.Panama.theta (Spec.Panama.pi (Spec.Panama.gamma s))).getD (i + 1) 0 ^^^ l i) ++
      ((List.range 8).map fun i => (Spec.Panama.theta (Spec.Panama.pi (Spec.Panama.gamma s))).getD (i + 9) 0 ^^^ b i)) = Spec.Panama.rho l' b' s := by
  unfold Spec.Panama.rho
  generalize Spec.Panama.theta (Spec.Panama.pi (Spec.Panama.gamma s)) = t
  have e1 : ((List.range 8).map fun i => t.getD (i + 1) 0 ^^^ l i) = ((List.range 8).map fun i => t.getD (i + 1) 0 ^^^ l' i) := List.map_congr_left fun i h => by rw [hl i (List.mem_range.1 h)]
  have e2 : ((List.range 8).map fun i => t.getD (i + 9) 0 ^^^ b i) = ((List.range 8).map fun i => t.getD (i + 9) 0 ^^^ b' i) := List.map_congr_left fun i h => by rw [hb i (List.mem_range.1 h)]
  rw [e1, e2]
  rfl

theorem step_ring (q q' : Nat → U32) (hq : ∀ i, i < 8 → q i = q' i) (buffer : List U32) (e : Nat) (he : e < 32) (hl : buffer.length = 256) (b : Buf)
    (hb : ∀ j i, j < 32 → i < 8 → b j i = buffer.getD (8 * ((e + j) % 32) + i) 0) :
    ∀ j i, j < 32 → i < 8 → Spec.Panama.lambda q' b j i = (bufferUpdate q (8 * ((e + 24) % 32)) (8 * ((e + 31) % 32)) buffer).getD (8 * (((e + 31) % 32 + j) % 32) + i) 0 := by
  intro j i hj hi
  have := (bufferUpdate_eq q ((e + 24) % 32) ((e + 31) % 32) buffer hl (by omega) (by omega) (by omega)).2 (((e + 31) % 32 + j) % 32) i (by omega) hi
  rw [this]
  unfold Spec.Panama.lambda
  by_cases h0 : j = 0
  · rw [if_pos h0, if_neg (by omega), if_pos (by omega), hb 31 i (by omega) hi, hq i hi]
  · rw [if_neg h0]
    by_cases h25 : j = 25
    · rw [if_pos h25, if_pos (by omega), hb 24 i (by omega) hi, hb 31 _ (by omega) (by omega)]
    · rw [if_neg h25, if_neg (by omega), if_neg (by omega), hb (j - 1) i (by omega) hi, show (e + (j - 1)) % 32 = ((e + 31) % 32 + j) % 32 by omega]

theorem in_words (b : Bytes) (hb : b.length = 32) (i : Nat) (hi : i < 8) : (bytesToUint32s b).getD i 0 = getLE32 b (4 * i) := by
  unfold bytesToUint32s
  rw [hb, getD_map_range _ _ _ _ (by omega), Nat.mul_comm]

theorem push_rel (d : Digest) (S : State) (b : Bytes) (hb : b.length = 32) (h : Rel d.s d.buffer d.bufferPtr S) :
    Rel (d.oneStep (some b)).s (d.oneStep (some b)).buffer (d.oneStep (some b)).bufferPtr (Spec.Panama.push (fun i => getLE32 b (4 * i)) S) := by
  obtain ⟨ha, hsl, hbl, e, he, hp, hr⟩ := h
  obtain ⟨p1, p2, p3, p4⟩ := ptrs e he
  have tn : ∀ k, k < 32 → (BitVec.ofNat 32 (8 * k)).toNat = 8 * k := fun k hk => by rw [BitVec.toNat_ofNat, Nat.mod_eq_of_lt (by simp only [Nat.reducePow]; omega)]
  have hu := bufferUpdate_eq (fun i => (bytesToUint32s b).getD i 0) ((e + 24) % 32) ((e + 31) % 32) d.buffer hbl (by omega) (by omega) (by omega)
  unfold Digest.oneStep
  simp only [Option.isSome_some, if_true]
  rw [hp, p1, p2, p3, tn _ (by omega), tn _ (by omega), tn _ (by omega), gamma_eq, pi_eq, theta_eq]
  refine ⟨?_, ?_, hu.1, (e + 31) % 32, by omega, rfl, ?_⟩
  · unfold Spec.Panama.push
    rw [← ha]
    apply rho_eq _ _ _ _ _ (fun i hi => in_words b hb i hi)
    intro i hi
    rw [hu.2 _ _ (by omega) hi, if_neg (by omega), if_neg (by omega), hr 16 i (by omega) hi]
  · simp
  · exact step_ring _ _ (fun i hi => in_words b hb i hi) _ _ he hbl _ hr

theorem pull_rel (d : Digest) (S : State) (h : Rel d.s d.buffer d.bufferPtr S) :
    Rel (d.oneStep none).s (d.oneStep none).buffer (d.oneStep none).bufferPtr (Spec.Panama.pull S) := by
  obtain ⟨ha, hsl, hbl, e, he, hp, hr⟩ := h
  obtain ⟨p1, p2, p3, p4⟩ := ptrs e he
  have tn : ∀ k, k < 32 → (BitVec.ofNat 32 (8 * k)).toNat = 8 * k := fun k hk => by rw [BitVec.toNat_ofNat, Nat.mod_eq_of_lt (by simp only [Nat.reducePow]; omega)]
  have hu := bufferUpdate_eq (fun i => d.s.getD (i + 1) 0) ((e + 24) % 32) ((e + 31) % 32) d.buffer hbl (by omega) (by omega) (by omega)
  unfold Digest.oneStep
  simp only [Option.isSome_none, if_false, Bool.false_eq_true]
  rw [hp, p1, p2, p3, p4, tn _ (by omega), tn _ (by omega), tn _ (by omega), tn _ (by omega), gamma_eq, pi_eq, theta_eq]
  refine ⟨?_, ?_, hu.1, (e + 31) % 32, by omega, rfl, ?_⟩
  · unfold Spec.Panama.pull
    rw [← ha]
    apply rho_eq
    · intro i hi
      rw [hu.2 _ _ (by omega) hi, if_neg (by omega), if_neg (by omega), hr 4 i (by omega) hi]
    · intro i hi
      rw [hu.2 _ _ (by omega) hi, if_neg (by omega), if_neg (by omega), hr 16 i (by omega) hi]
  · simp
  · apply step_ring _ _ _ _ _ he hbl _ hr
    intro i hi
    unfold st
    rw [← ha, Nat.mod_eq_of_lt (by omega)]


/-- State after the message m. -/
def Core.Holds (c : Core) (m : Bytes) : Prop :=
  Rel c.s c.buffer c.bufferPtr ((fullBlocks 32 m).foldl (fun s b => Spec.Panama.push (fun i => getLE32 b (4 * i)) s) Spec.Panama.init)

structure Rep (d : Digest) (m : Bytes) : Prop where
  loop : LoopRep 32 32 Core.Holds ⟨d.s, d.buffer, d.bufferPtr⟩ d.x d.nx m

theorem init_rel : Rel (List.replicate 17 0) (List.replicate 256 0) 0 Spec.Panama.init := by
  refine ⟨rfl, List.length_replicate, List.length_replicate, 0, by omega, rfl, ?_⟩
  intro j i hj hi
  show (0 : U32) = _
  rw [List.getD_eq_getElem?_getD, List.getElem?_replicate, if_pos (by omega)]; rfl

theorem reset_rep : Rep reset [] := ⟨LoopRep.init _ _ _ _ (by
  unfold Core.Holds
  rw [fullBlocks_nil]
  exact init_rel)⟩

theorem coreStep_rel (c : Core) (S : Spec.Panama.State) (x : Bytes) (n : Nat) (hx : x.length = 32) (h : Rel c.s c.buffer c.bufferPtr S) :
    Rel (coreStep c x n).s (coreStep c x n).buffer (coreStep c x n).bufferPtr (Spec.Panama.push (fun i => getLE32 x (4 * i)) S) := by
  unfold coreStep
  dsimp only
  exact push_rel { s := c.s, x := x, nx := 0, buffer := c.buffer, bufferPtr := c.bufferPtr } S x hx h

theorem holds_step (c : Core) (m p x : Bytes) (n : Nat) (h : Core.Holds c m) (hx : x.length = 32) (hb : fullBlocks 32 (m ++ p) = fullBlocks 32 m ++ [x]) :
    Core.Holds (coreStep c x n) (m ++ p) := by
  unfold Core.Holds at *
  rw [hb, List.foldl_append, List.foldl_cons, List.foldl_nil]
  exact coreStep_rel c _ x n hx h

theorem write_rep (d : Digest) (m p : Bytes) (h : Rep d m) : Rep (d.write p) (m ++ p) := by
  refine ⟨?_⟩
  refine loopWrite_rep 32 32 (by omega) (Nat.le_refl _) Core.Holds coreStep (fun c _ => c) ?_ ?_ (p.length + 1) ⟨d.s, d.buffer, d.bufferPtr⟩ d.x d.nx m p h.loop (by omega)
  · intro s x m p hR hx hl ht hb hr
    rw [List.take_of_length_le (l := x) (Nat.le_of_eq hx)] at ht
    rw [← ht] at hb
    exact holds_step s m p x _ hR hx hb
  · intro s m p hR hl hb hr
    unfold Core.Holds at *
    rw [hb]; exact hR

theorem checkSum_eq (d : Digest) (m : Bytes) (h : Rep d m) : d.checkSum = Spec.Panama.hash m := by
  have hl := h.loop
  have hlt := hl.nx_lt (by omega)
  have hml : m.length % 32 = d.nx := by rw [hl.hnx, restBlock_length]
  have hrl : (restBlock 32 m).length = d.nx := hl.hnx.symm
  have hpad : (goCopy (zeros 32) 0 (d.x.take d.nx)).set d.nx 0x01 = restBlock 32 m ++ 0x01 :: zeros (31 - d.nx) := by
    rw [hl.pend]
    have : goCopy (zeros 32) 0 (restBlock 32 m) = restBlock 32 m ++ zeros (32 - d.nx) := by
      unfold goCopy
      rw [List.take_zero, List.nil_append, zeros_length, List.take_of_length_le (by omega), Nat.zero_add, hrl]
      congr 1
      unfold zeros; rw [List.drop_replicate]
    rw [this, List.set_append_right _ _ (by omega), hrl, Nat.sub_self, show 32 - d.nx = (31 - d.nx) + 1 by omega]
    rfl
  have hst := hl.st
  unfold Core.Holds at hst
  have h1 := push_rel d _ (restBlock 32 m ++ 0x01 :: zeros (31 - d.nx)) (by rw [List.length_append, List.length_cons, zeros_length]; omega) hst
  unfold Digest.checkSum Spec.Panama.hash
  dsimp only
  rw [hpad, fullBlocks_mdPad_one 32 0x01 [] m (by omega) (by rw [hml]; show d.nx + 1 + 0 ≤ 32; omega), List.foldl_append, List.foldl_cons, List.foldl_nil, hml, List.length_nil, Nat.sub_zero, List.append_nil,
    show 32 - 1 - d.nx = 31 - d.nx by omega]
  generalize Spec.Panama.push _ _ = S at *
  generalize d.oneStep (some (restBlock 32 m ++ 0x01 :: zeros (31 - d.nx))) = d1 at *
  have h2 : ∀ n, Rel (forLoop 0 n (fun d _ => d.oneStep none) d1).s (forLoop 0 n (fun d _ => d.oneStep none) d1).buffer (forLoop 0 n (fun d _ => d.oneStep none) d1).bufferPtr
      ((List.range n).foldl (fun s _ => Spec.Panama.pull s) S) := by
    intro n
    induction n with
    | zero => rw [forLoop_nil _ _ _ _ (Nat.le_refl _)]; exact h1
    | succ n ih =>
      rw [forLoop_succ _ _ _ _ (Nat.zero_le _), List.range_succ, List.foldl_append]
      exact pull_rel _ _ ih
  have h3 := h2 32
  generalize forLoop 0 32 (fun d _ => Digest.oneStep d none) d1 = d2 at *
  generalize (List.range 32).foldl (fun s _ => Spec.Panama.pull s) S = S2 at *
  have ha := h3.a
  have hsl := h3.sl
  rw [← ha]
  generalize d2.s = s at *
  have hd : s.drop 9 = (List.range 8).map fun i => st s (i + 9) := by
    apply LSH.ext_getD
    · simp [hsl]
    · intro i hi
      rw [List.length_drop, hsl] at hi
      rw [getD_map_range _ _ _ _ (by omega)]
      unfold st
      rw [List.getD_eq_getElem?_getD, List.getElem?_drop, List.getD_eq_getElem?_getD, Nat.mod_eq_of_lt (by omega), Nat.add_comm]
  rw [hd]
  unfold uint32sToBytes
  rw [List.flatMap_map, List.take_of_length_le]
  simp [List.length_flatMap, le32]; decide

end Verif.Panama
