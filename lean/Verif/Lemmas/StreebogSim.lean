import Verif.Lemmas.StreebogPkg
import Verif.Padding
namespace Verif.Streebog
open Spec.Streebog (leNat natLE absorb NoRipple CarrySafe)

/-- The chaining part stands for the standard's `(h, N, Sigma)`. -/
structure Stands (c : Chain) (st : Bytes × Nat × Nat) : Prop where
  slen : c.s.length = 8
  s : uint64sToBytes c.s = st.1
  n : c.len = BitVec.ofNat 64 st.2.1
  Slen : c.S.length = 8
  S : wordsNat c.S = st.2.2

theorem block_stands {c : Chain} {st : Bytes × Nat × Nat} {b : Bytes} (h : Stands c st) (hb : b.length = 64) (hn : st.2.1 + 512 < 2 ^ 64)
    (hr : ¬ Spec.Streebog.Ripple st.2.2 (leNat b)) : Stands (block c b) (absorb st b) := by
  obtain ⟨h1, h2, h3, h4, h5⟩ := h
  obtain ⟨g1, g2⟩ := gN_eq (h := c.s) (m := b) (N := st.2.1) h1 hb (Nat.lt_of_le_of_lt (Nat.le_add_right _ _) hn)
  rw [← h5] at hr
  obtain ⟨a1, a2⟩ := addm_eq h4 hb hr
  have e : block c b = { s := gN c.s b c.len, len := c.len + 512, S := addm b c.S } := by
    unfold block transform; rfl
  rw [e, h3]
  constructor
  · dsimp only; exact g2
  · rw [Gost12.absorb_h, ← h2, ← g1]
  · rw [Gost12.absorb_n _ _ hn, BitVec.ofNat_add]; rfl
  · dsimp only; exact a1
  · rw [Gost12.absorb_c, ← h5, ← a2]

theorem fold_stands (bs : List Bytes) (hb : ∀ b ∈ bs, b.length = 64) : ∀ (c : Chain) (st : Bytes × Nat × Nat), Stands c st → st.2.1 + 512 * bs.length < 2 ^ 64 →
    NoRipple st.2.2 bs → Stands (bs.foldl block c) (bs.foldl absorb st) := by
  induction bs with
  | nil => intro c st h _ _; exact h
  | cons b bs ih =>
    intro c st h hn hr
    rw [List.length_cons] at hn
    have h5 : st.2.1 + 512 + 512 * bs.length < 2 ^ 64 := by omega
    have hn1 := Nat.lt_of_le_of_lt (Nat.le_add_right _ _) h5
    rw [List.foldl_cons, List.foldl_cons]
    refine ih (fun x hx => hb x (List.mem_cons_of_mem _ hx)) _ _ (block_stands h (hb b (List.mem_cons_self ..)) hn1 hr.1) ?_ ?_
    · rw [Gost12.absorb_n _ _ hn1]; exact h5
    · rw [Gost12.absorb_c]; exact hr.2

theorem noRipple_append : ∀ (a b : List Bytes) (s : Nat) (st : Bytes × Nat × Nat), st.2.2 = s → NoRipple s (a ++ b) →
    NoRipple s a ∧ NoRipple (a.foldl absorb st).2.2 b
  | [], b, s, st, hs, h => ⟨True.intro, by rw [List.foldl_nil, hs]; exact h⟩
  | x :: a, b, s, st, hs, h => by
    have ih := noRipple_append a b _ (absorb st x) (by rw [Gost12.absorb_c, hs]) h.2
    exact ⟨⟨h.1, ih.1⟩, by rw [List.foldl_cons]; exact ih.2⟩

/-- The initial words. -/
def ivW (hs : Nat) : List U64 := if hs = 512 then initIv512 else initIv256

theorem ivW_eq {hs : Nat} (h : hs = 256 ∨ hs = 512) : (ivW hs).length = 8 ∧ uint64sToBytes (ivW hs) = Gost12.iv (hs / 8) := by
  rcases h with rfl | rfl <;> decide

/-- The states that stand for message `m`. -/
structure Repr (hs : Nat) (d : Digest) (m : Bytes) : Prop where
  sz : d.hs = hs
  buf : BufRepr 64 block { s := ivW hs, len := 0, S := List.replicate 8 0 } d.c d.x d.nx m

theorem repr_reset {hs : Nat} {d : Digest} (h : d.hs = hs) : Repr hs (reset d) [] := by
  subst h
  exact ⟨rfl, BufRepr.init block _ (zeros 64) (zeros_length 64)⟩

theorem repr_write {hs : Nat} {d : Digest} {m : Bytes} (h : Repr hs d m) (p : Bytes) : Repr hs (write d p) (m ++ p) :=
  ⟨h.sz, bufWrite_spec block (by decide) _ _ _ _ _ _ h.buf⟩

theorem padX {x p : Bytes} {nx : Nat} (hx : x.length = 64) (hn : nx < 64) (hp : x.take nx = p) :
    goCopy (x.set nx 1#8) (nx + 1) (zeros 64) = p ++ [1#8] ++ zeros (63 - nx) := by
  have hpl : p.length = nx := by rw [← hp, List.length_take]; omega
  have e : (x.set nx 1#8).take (nx + 1) = p ++ [1#8] := by
    have h1 : (x.set nx 1#8).take (nx + 1) = (x.set nx 1#8).take nx ++ [(x.set nx 1#8)[nx]'(by rw [List.length_set, hx]; exact hn)] :=
      List.take_succ_eq_append_getElem _
    rw [h1, List.take_set_of_le (Nat.le_refl nx), hp, List.getElem_set_self]
  unfold goCopy
  rw [e, List.length_set, hx]
  have : (zeros 64).take (64 - (nx + 1)) = zeros (63 - nx) := by
    unfold zeros; rw [List.take_replicate]; congr 1; omega
  rw [this, List.drop_of_length_le (by rw [List.length_set, hx, zeros_length]; omega), List.append_nil]

theorem mem_fullBlocks_len {m b : Bytes} (h : b ∈ fullBlocks 64 m) : b.length = 64 := mem_fullBlocks_length 64 m b h

theorem sum_eq {hs : Nat} (hsz : hs = 256 ∨ hs = 512) {d : Digest} {m : Bytes} (h : Repr hs d m) (hl : m.length < 2 ^ 61) (hc : CarrySafe m) :
    checkSum d = Spec.Streebog.hash (hs / 8) m := by
  obtain ⟨h1, hb⟩ := h
  have hrl := restBlock_length 64 m
  have hmod := Nat.mod_lt m.length (show 0 < 64 by decide)
  unfold CarrySafe at hc
  have hpl : (restBlock 64 m ++ ([1#8] ++ zeros (63 - m.length % 64))).length = 64 := by simp; omega
  rw [List.append_assoc, fullBlocks_append_rest 64 _ _ (by decide), fullBlocks_one 64 _ (by decide) hpl] at hc
  obtain ⟨c1, c2⟩ := noRipple_append _ _ 0 (Gost12.iv (hs / 8), 0, 0) rfl hc
  obtain ⟨w1, w2⟩ := ivW_eq hsz
  have hN := Gost12.N_eq (hs / 8) m hl
  have hst := fold_stands (fullBlocks 64 m) (fun b hb => mem_fullBlocks_len hb) { s := ivW hs, len := 0, S := List.replicate 8 0 } (Gost12.iv (hs / 8), 0, 0)
    ⟨w1, w2, rfl, rfl, show wordsNat (List.replicate 8 0) = 0 by decide⟩ (by rw [fullBlocks_length]; show 0 + _ < _; omega) c1
  rw [← hb.state] at hst
  have hx := padX hb.xlen (hb.nx_lt (by decide)) hb.pend
  have hnx := hb.nx_eq
  rw [List.append_assoc, hnx] at hx
  unfold Spec.Streebog.hash
  simp only
  rw [show (if hs / 8 = 32 then List.replicate 64 1#8 else zeros 64) = Gost12.iv (hs / 8) from rfl]
  rw [List.append_assoc]
  generalize (fullBlocks 64 m).foldl absorb (Gost12.iv (hs / 8), 0, 0) = st at *
  obtain ⟨H, N, Sg⟩ := st
  simp only at hN c2
  rw [hrl] at *
  generalize hpd : restBlock 64 m ++ ([1#8] ++ zeros (63 - m.length % 64)) = pd at *
  obtain ⟨s1, s2, s3, s4, s5⟩ := hst
  simp only at s2 s3 s5
  have hN64 : N < 2 ^ 64 := by omega
  obtain ⟨g1, g2⟩ := gN_eq (h := d.c.s) (m := pd) (N := N) s1 hpl hN64
  obtain ⟨a1, a2⟩ := addm_eq (h := d.c.S) (b := pd) s4 hpl (by rw [s5]; exact c2.1)
  rw [← s3] at g1 g2
  rw [s2] at g1
  rw [s5] at a2
  have hlen : d.c.len + BitVec.ofNat 64 (m.length % 64) * 8 = BitVec.ofNat 64 (N + 8 * (m.length % 64)) := by
    rw [s3, BitVec.ofNat_add, Nat.mul_comm, BitVec.ofNat_mul]
    rfl
  have hM : N + 8 * (m.length % 64) < 2 ^ 64 := by omega
  have hcs : checkSum d = (uint64sToBytes ((gN (gN (gN d.c.s pd d.c.len) (goCopy (zeros 64) 0 (le64 (d.c.len + BitVec.ofNat 64 (m.length % 64) * 8))) 0)
      (goCopy (goCopy (zeros 64) 0 (le64 (d.c.len + BitVec.ofNat 64 (m.length % 64) * 8))) 0 (uint64sToBytes (addm pd d.c.S))) 0).drop (8 - hs / 64))).take (hs / 8) := by
    unfold checkSum
    simp only [transform, Bool.not_false, Bool.not_true, if_true, Bool.false_eq_true, if_false]
    rw [hnx, hx, h1, Nat.add_sub_cancel]
  rw [hcs, hlen]
  have hx1 : goCopy (zeros 64) 0 (le64 (BitVec.ofNat 64 (N + 8 * (m.length % 64)))) = natLE 64 ((N + 8 * (m.length % 64)) % 2 ^ 512) := by
    rw [Gost12.mod512 hM, Gost12.natLE_word _ hM 56]
    rfl
  rw [hx1]
  have hx2 : goCopy (natLE 64 ((N + 8 * (m.length % 64)) % 2 ^ 512)) 0 (uint64sToBytes (addm pd d.c.S)) = natLE 64 ((Sg + leNat pd) % 2 ^ 512) := by
    have hb64 : (uint64sToBytes (addm pd d.c.S)).length = 64 := by rw [toBytes_length, a1]
    have e1 : goCopy (natLE 64 ((N + 8 * (m.length % 64)) % 2 ^ 512)) 0 (uint64sToBytes (addm pd d.c.S)) = uint64sToBytes (addm pd d.c.S) := by
      unfold goCopy
      have := Spec.Streebog.natLE_length 64 ((N + 8 * (m.length % 64)) % 2 ^ 512)
      rw [List.take_zero, List.nil_append, this, List.take_of_length_le (Nat.le_of_eq hb64), List.drop_of_length_le (by rw [this, hb64]; exact Nat.le_refl _), List.append_nil]
    rw [e1, ← a2, ← leNat_toBytes]
    have := Spec.Streebog.natLE_leNat (uint64sToBytes (addm pd d.c.S))
    rw [hb64] at this
    exact this.symm
  rw [hx2]
  have z : (0 : U64) = BitVec.ofNat 64 0 := rfl
  rw [z]
  obtain ⟨p1, p2⟩ := gN_eq (h := gN d.c.s pd d.c.len) (m := natLE 64 ((N + 8 * (m.length % 64)) % 2 ^ 512)) (N := 0) g2 (Spec.Streebog.natLE_length _ _) (by decide)
  obtain ⟨q1, q2⟩ := gN_eq (h := gN (gN d.c.s pd d.c.len) (natLE 64 ((N + 8 * (m.length % 64)) % 2 ^ 512)) (BitVec.ofNat 64 0))
    (m := natLE 64 ((Sg + leNat pd) % 2 ^ 512)) (N := 0) p2 (Spec.Streebog.natLE_length _ _) (by decide)
  rw [p1, g1] at q1
  rw [← q1]
  generalize gN (gN (gN d.c.s pd d.c.len) (natLE 64 ((N + 8 * (m.length % 64)) % 2 ^ 512)) (BitVec.ofNat 64 0))
    (natLE 64 ((Sg + leNat pd) % 2 ^ 512)) (BitVec.ofNat 64 0) = w at q2 ⊢
  have hdrop : ∀ k, k ≤ 8 → uint64sToBytes (w.drop k) = (uint64sToBytes w).drop (8 * k) := by
    intro k hk
    have e : uint64sToBytes w = uint64sToBytes (w.take k) ++ uint64sToBytes (w.drop k) := by
      conv => lhs; rw [← List.take_append_drop k w]
      unfold uint64sToBytes
      rw [List.map_append, List.flatten_append]
    rw [e, List.drop_left' (by rw [toBytes_length, List.length_take]; omega)]
  have hwl := toBytes_length w
  rcases hsz with rfl | rfl
  · rw [hdrop _ (by decide), List.take_of_length_le (by rw [List.length_drop, hwl, q2]; decide)]
  · rw [hdrop _ (by decide), List.take_of_length_le (by rw [List.length_drop, hwl, q2]; decide)]

end Verif.Streebog
