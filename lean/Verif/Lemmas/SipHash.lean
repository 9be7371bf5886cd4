import Verif.Spec.SipHash
import Verif.Model.SipHash
import Verif.Bits
import Verif.Padding
namespace Verif.SipHash
set_option linter.unusedSimpArgs false

/-- The two representations of the internal state. -/
def toSpec (s : S) : Spec.SipHash.S := ⟨s.s0, s.s1, s.s2, s.s3⟩

theorem sipround_eq (s : S) : toSpec (sipround s) = Spec.SipHash.sipRound (toSpec s) := rfl

theorem rounds_eq (n : Nat) (s : S) : toSpec (rounds n s) = Spec.SipHash.rounds n (toSpec s) := by
  unfold rounds
  refine forLoop_inv (a := 0) (b := n)
    (fun j (t : S) => toSpec t = Spec.SipHash.rounds j (toSpec s)) (by omega) rfl ?_
  intro j t _ _ ih
  show toSpec (sipround t) = _
  rw [sipround_eq, ih]
  rfl

theorem transform_eq (c : U32) (s : S) (x : Bytes) :
    toSpec (transform c s x) = Spec.SipHash.word c.toNat (toSpec s) (getLE64 x) := by
  have h := rounds_eq c.toNat { s with s3 := s.s3 ^^^ getLE64 x }
  unfold Spec.SipHash.word
  rw [show Spec.SipHash.S.mk (toSpec s).v0 (toSpec s).v1 (toSpec s).v2 ((toSpec s).v3 ^^^ getLE64 x) =
    toSpec { s with s3 := s.s3 ^^^ getLE64 x } from rfl, ← h]
  rfl

theorem foldl_eq (c : U32) (l : List Bytes) : ∀ s : S,
    toSpec (l.foldl (transform c) s) = (l.map getLE64).foldl (Spec.SipHash.word c.toNat) (toSpec s) := by
  induction l with
  | nil => intro s; rfl
  | cons b l ih =>
    intro s
    simp only [List.foldl_cons, List.map_cons]
    rw [ih, transform_eq]

theorem len_top (n : Nat) : (BitVec.ofNat 64 n) <<< 56 = (BitVec.ofNat 8 n).setWidth 64 <<< 56 := by
  apply BitVec.eq_of_toNat_eq
  simp only [BitVec.toNat_shiftLeft, BitVec.toNat_setWidth, BitVec.toNat_ofNat, Nat.shiftLeft_eq]
  omega

/-- The last word is the padding of the paper. -/
theorem lastWord_eq (n : Nat) (x r : Bytes) (h : x.take r.length = r) (hr : r.length < 8) :
    lastWord (BitVec.ofNat 64 n) x r.length = getLE64 (r ++ zeros (7 - r.length) ++ [BitVec.ofNat 8 n]) := by
  have hx : ∀ i, i < r.length → at8 x i = at8 r i := by
    intro i hi
    conv => rhs; rw [← h]
    unfold at8
    rw [List.getD_eq_getElem?_getD, List.getD_eq_getElem?_getD, List.getElem?_take_of_lt hi]
  have z : (0#8).setWidth 64 = (0#64 : U64) := rfl
  have zs : ∀ k : Nat, (0#64 : U64) <<< k = 0#64 := by intro k; simp
  have : ∀ b0 b1 b2 b3 b4 b5 b6 b7 : Byte, getLE64 [b0, b1, b2, b3, b4, b5, b6, b7] = 
      b7.setWidth 64 <<< 56 ||| b6.setWidth 64 <<< 48 ||| b5.setWidth 64 <<< 40 ||| b4.setWidth 64 <<< 32 |||
      b3.setWidth 64 <<< 24 ||| b2.setWidth 64 <<< 16 ||| b1.setWidth 64 <<< 8 ||| b0.setWidth 64 :=
    fun b0 b1 b2 b3 b4 b5 b6 b7 => join8_or b0 b1 b2 b3 b4 b5 b6 b7
  unfold lastWord
  rw [len_top]
  match r, hr with
  | [], _ =>
    simp only [List.length_cons, List.length_nil, zeros, Nat.reduceAdd, Nat.reduceSub, List.replicate, List.cons_append,
      List.nil_append, this, z, zs, BitVec.or_zero]
    simp (config := {decide := true}) only [orIf, if_true, if_false]
  | [a], _ =>
    simp only [List.length_cons, List.length_nil, Nat.reduceAdd] at hx
    simp only [List.length_cons, List.length_nil, zeros, Nat.reduceAdd, Nat.reduceSub, List.replicate, List.cons_append,
      List.nil_append, this, z, zs, BitVec.or_zero]
    simp only [show at8 x 0 = a from hx 0 (by decide)]
    simp (config := {decide := true}) only [orIf, if_true, if_false]
  | [a, b], _ =>
    simp only [List.length_cons, List.length_nil, Nat.reduceAdd] at hx
    simp only [List.length_cons, List.length_nil, zeros, Nat.reduceAdd, Nat.reduceSub, List.replicate, List.cons_append,
      List.nil_append, this, z, zs, BitVec.or_zero]
    simp only [show at8 x 0 = a from hx 0 (by decide), show at8 x 1 = b from hx 1 (by decide)]
    simp (config := {decide := true}) only [orIf, if_true, if_false]
  | [a, b, c], _ =>
    simp only [List.length_cons, List.length_nil, Nat.reduceAdd] at hx
    simp only [List.length_cons, List.length_nil, zeros, Nat.reduceAdd, Nat.reduceSub, List.replicate, List.cons_append,
      List.nil_append, this, z, zs, BitVec.or_zero]
    simp only [show at8 x 0 = a from hx 0 (by decide), show at8 x 1 = b from hx 1 (by decide), show at8 x 2 = c from hx 2 (by decide)]
    simp (config := {decide := true}) only [orIf, if_true, if_false]
  | [a, b, c, d], _ =>
    simp only [List.length_cons, List.length_nil, Nat.reduceAdd] at hx
    simp only [List.length_cons, List.length_nil, zeros, Nat.reduceAdd, Nat.reduceSub, List.replicate, List.cons_append,
      List.nil_append, this, z, zs, BitVec.or_zero]
    simp only [show at8 x 0 = a from hx 0 (by decide), show at8 x 1 = b from hx 1 (by decide), show at8 x 2 = c from hx 2 (by decide), show at8 x 3 = d from hx 3 (by decide)]
    simp (config := {decide := true}) only [orIf, if_true, if_false]
  | [a, b, c, d, e], _ =>
    simp only [List.length_cons, List.length_nil, Nat.reduceAdd] at hx
    simp only [List.length_cons, List.length_nil, zeros, Nat.reduceAdd, Nat.reduceSub, List.replicate, List.cons_append,
      List.nil_append, this, z, zs, BitVec.or_zero]
    simp only [show at8 x 0 = a from hx 0 (by decide), show at8 x 1 = b from hx 1 (by decide), show at8 x 2 = c from hx 2 (by decide), show at8 x 3 = d from hx 3 (by decide), show at8 x 4 = e from hx 4 (by decide)]
    simp (config := {decide := true}) only [orIf, if_true, if_false]
  | [a, b, c, d, e, f], _ =>
    simp only [List.length_cons, List.length_nil, Nat.reduceAdd] at hx
    simp only [List.length_cons, List.length_nil, zeros, Nat.reduceAdd, Nat.reduceSub, List.replicate, List.cons_append,
      List.nil_append, this, z, zs, BitVec.or_zero]
    simp only [show at8 x 0 = a from hx 0 (by decide), show at8 x 1 = b from hx 1 (by decide), show at8 x 2 = c from hx 2 (by decide), show at8 x 3 = d from hx 3 (by decide), show at8 x 4 = e from hx 4 (by decide), show at8 x 5 = f from hx 5 (by decide)]
    simp (config := {decide := true}) only [orIf, if_true, if_false]
  | [a, b, c, d, e, f, g], _ =>
    simp only [List.length_cons, List.length_nil, Nat.reduceAdd] at hx
    simp only [List.length_cons, List.length_nil, zeros, Nat.reduceAdd, Nat.reduceSub, List.replicate, List.cons_append,
      List.nil_append, this, z, zs, BitVec.or_zero]
    simp only [show at8 x 0 = a from hx 0 (by decide), show at8 x 1 = b from hx 1 (by decide), show at8 x 2 = c from hx 2 (by decide), show at8 x 3 = d from hx 3 (by decide), show at8 x 4 = e from hx 4 (by decide), show at8 x 5 = f from hx 5 (by decide), show at8 x 6 = g from hx 6 (by decide)]
    simp (config := {decide := true}) only [orIf, if_true, if_false]

/-- `checkSum` from any initial state. -/
theorem checkSum_eq (hs : Int) (hh : hs = 8 ∨ hs = 16) (c dr : U32) (hc : c ≠ 0) (s₀ : S) (d : Digest) (m : Bytes)
    (hd : d.Repr 8 (transform c) s₀ m) :
    checkSum hs c dr d = Spec.SipHash.hashFrom c.toNat dr.toNat (hs == 16) (toSpec s₀) m := by
  have hrl := restBlock_length 8 m
  have hb : fullBlocks 8 (Spec.SipHash.pad m) = fullBlocks 8 m ++
      [restBlock 8 m ++ zeros (7 - (restBlock 8 m).length) ++ [BitVec.ofNat 8 m.length]] := by
    unfold Spec.SipHash.pad
    rw [List.append_assoc m, fullBlocks_append_rest 8 m _ (by decide), hrl, ← List.append_assoc]
    rw [fullBlocks_one 8 (restBlock 8 m ++ _ ++ _) (by decide) (by simp [hrl]; omega)]
  unfold Spec.SipHash.hashFrom
  rw [hb, List.map_append, List.foldl_append, ← foldl_eq, ← hd.buf.state]
  simp only [List.map_cons, List.map_nil, List.foldl_cons, List.foldl_nil]
  have hnx : d.nx = (restBlock 8 m).length := by rw [hd.buf.nx_eq, hrl]
  have hx := hd.buf.pend
  rw [hnx] at hx
  rw [← lastWord_eq m.length d.x _ hx (by rw [hrl]; omega), ← hd.len_eq, ← hnx]
  unfold checkSum
  simp only [if_neg hc]
  generalize lastWord d.len d.x d.nx = w
  have ht := transform_eq c d.s (le64 w)
  have hw : getLE64 (le64 w) = w := by have := getLE64_le64 w []; rwa [List.append_nil] at this
  rw [hw] at ht
  rw [← ht]
  generalize transform c d.s (le64 w) = t
  unfold Spec.SipHash.finish
  rcases hh with rfl | rfl
  · simp only [show ((8 : Int) = 16) = False by decide, if_false, if_true, show ((8 : Int) == 16) = false by decide,
      Bool.false_eq_true]
    rw [show Spec.SipHash.S.mk (toSpec t).v0 (toSpec t).v1 ((toSpec t).v2 ^^^ 0xff#64) (toSpec t).v3 =
      toSpec { t with s2 := t.s2 ^^^ 0xff#64 } from rfl, ← rounds_eq]
    rfl
  · simp only [show ((16 : Int) = 8) = False by decide, if_false, if_true, show ((16 : Int) == 16) = true by decide]
    rw [show Spec.SipHash.S.mk (toSpec t).v0 (toSpec t).v1 ((toSpec t).v2 ^^^ 0xee#64) (toSpec t).v3 =
      toSpec { t with s2 := t.s2 ^^^ 0xee#64 } from rfl, ← rounds_eq]
    generalize rounds dr.toNat { t with s2 := t.s2 ^^^ 0xee#64 } = u
    rw [show Spec.SipHash.S.mk (toSpec u).v0 ((toSpec u).v1 ^^^ 0xdd#64) (toSpec u).v2 (toSpec u).v3 =
      toSpec { u with s1 := u.s1 ^^^ 0xdd#64 } from rfl, ← rounds_eq]
    rfl

theorem keyState_eq (hs : Int) (k : Bytes) :
    toSpec (keyState hs k) = Spec.SipHash.init (hs == 16) k := by
  unfold keyState Spec.SipHash.init
  simp only [getLE64_drop]
  by_cases h : hs = 16
  · subst h; simp [toSpec, BitVec.xor_comm]
  · simp [h, toSpec, BitVec.xor_comm]

theorem hsOf_cases (n : Int) : hsOf n = if n = 8 then 8 else 16 := by
  unfold hsOf adjustHashSize
  by_cases h0 : n = 0 <;> by_cases h8 : n = 8 <;> by_cases h16 : n = 16 <;> simp_all

theorem defaultRounds_ne (n d : U32) (hd : d ≠ 0) : defaultRounds n d ≠ 0 := by
  unfold defaultRounds; split <;> assumption

end Verif.SipHash
