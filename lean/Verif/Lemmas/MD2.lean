import Verif.Spec.MD2
import Verif.Model.MD2
import Verif.Bits
import Mathlib.Tactic.IntervalCases
/-
Lemmas connecting the md2 model with RFC 1319.
-/
namespace Verif.MD2
open Verif.Spec

theorem sbox_eq : sbox = MD2.S := by decide +kernel

theorem accum_pass (l : Bytes) : ∀ (i : Nat) (t : Byte),
    accum (fun _ t x => x ^^^ sbox.getD t.toNat 0) i t l = MD2.pass t l := by
  induction l with
  | nil => intros; rfl
  | cons x l ih => intro i t; simp only [accum, MD2.pass]; rw [ih, sbox_eq]

theorem pass_length (l : Bytes) : ∀ t, (MD2.pass t l).1.length = l.length := by
  induction l with
  | nil => intro; rfl
  | cons x l ih => intro t; simp [MD2.pass, ih]

theorem inner_eq (l : Bytes) (t : Byte) (h : l.length = 48) :
    forLoop 0 48 (fun (st : Bytes × Byte) j =>
      let s := st.1.set j (st.1.getD j 0 ^^^ sbox.getD st.2.toNat 0)
      (s, s.getD j 0)) (l, t) = MD2.pass t l := by
  have := forLoop_accum (fun _ t x => x ^^^ sbox.getD t.toNat 0) (0 : Byte) l [] t
  simp only [List.length_nil, Nat.zero_add, h, List.nil_append, accum_pass] at this
  exact this

theorem passes_length (l : Bytes) (h : l.length = 48) (n : Nat) : (MD2.passes l n).1.length = 48 := by
  induction n with
  | zero => exact h
  | succ n ih => simp [MD2.passes, pass_length, ih]

theorem outer_eq (l : Bytes) (h : l.length = 48) :
    forLoop 0 18 (fun (st : Bytes × Byte) i =>
      let (s, t) := forLoop 0 48 (fun (st : Bytes × Byte) j =>
        let s := st.1.set j (st.1.getD j 0 ^^^ sbox.getD st.2.toNat 0)
        (s, s.getD j 0)) st
      (s, t + BitVec.ofNat 8 i)) (l, 0#8) = MD2.passes l 18 := by
  refine forLoop_inv (a := 0) (b := 18) (fun j st => st = MD2.passes l j) (by omega) rfl ?_
  intro j st _ _ ih
  subst ih
  have := inner_eq (MD2.passes l j).1 (MD2.passes l j).2 (passes_length l h j)
  simp only at this ⊢
  rw [this]
  rfl

theorem accum_check (p : Bytes) : ∀ (l pre q : Bytes) (t : Byte), p = pre ++ q → l.length = q.length →
    (accum (fun i t x => x ^^^ sbox.getD (p.getD i 0 ^^^ t).toNat 0) pre.length t l).1 =
      MD2.checkBlock t l q := by
  intro l
  induction l with
  | nil => intro pre q t _ h; cases q <;> rfl
  | cons x l ih =>
    intro pre q t hp hl
    cases q with
    | nil => simp at hl
    | cons b q =>
      have e : p.getD pre.length 0 = b := by subst hp; simp
      simp only [accum, MD2.checkBlock, e]
      have := ih (pre ++ [b]) q (x ^^^ sbox.getD (b ^^^ t).toNat 0) (by simp [hp]) (by simpa using hl)
      simp only [List.length_append, List.length_cons, List.length_nil, Nat.zero_add] at this
      rw [this, sbox_eq]

theorem fill_eq (s p : Bytes) (hs : s.length = 48) (hp : p.length = 16) :
    forLoop 0 16 (fun (s : Bytes) i =>
      let s := s.set (i+16) (p.getD i 0)
      s.set (i+32) (p.getD i 0 ^^^ s.getD i 0)) s =
    s.take 16 ++ p ++ List.zipWith (· ^^^ ·) p (s.take 16) := by
  have h := forLoop_inv (a := 0) (b := 16) (s := s)
    (body := fun (s : Bytes) i =>
      let s := s.set (i+16) (p.getD i 0)
      s.set (i+32) (p.getD i 0 ^^^ s.getD i 0))
    (fun j (r : Bytes) => r.length = 48 ∧ (∀ k, k < 16 → r.getD k 0 = s.getD k 0) ∧
      (∀ k, k < j → r.getD (16+k) 0 = p.getD k 0 ∧ r.getD (32+k) 0 = p.getD k 0 ^^^ s.getD k 0))
    (by omega) ⟨hs, fun _ _ => rfl, fun k hk => by omega⟩ (by
      intro j r _ hj ⟨hl, h1, h2⟩
      refine ⟨by simpa using hl, fun k hk => ?_, fun k hk => ?_⟩
      · simp only [getD_set, List.length_set, hl]
        rw [if_neg (by omega), if_neg (by omega), h1 k hk]
      · simp only [getD_set, List.length_set, hl]
        by_cases e : k = j
        · subst e
          rw [if_neg (by omega), if_pos (by omega), if_pos (by omega), if_neg (by omega), h1 _ hj]
          exact ⟨rfl, rfl⟩
        · rw [if_neg (by omega), if_neg (by omega), if_neg (by omega), if_neg (by omega)]
          exact h2 k (by omega))
  obtain ⟨hl, h1, h2⟩ := h
  have hx : ∀ (i : Nat) (l : Bytes) (h : i < l.length), l[i] = l.getD i 0 := by
    intro i l h; simp [h]
  apply List.ext_getElem
  · rw [hl]; simp [hs, hp]
  · intro i hi hi2
    rw [hl] at hi
    rw [hx i _ (by rw [hl]; omega)]
    by_cases c1 : i < 16
    · rw [h1 i c1, List.getElem_append_left (by simp [hs, hp]; omega), List.getElem_append_left (by simp [hs]; omega)]
      simp [List.getElem_take, hs, hi]
    · by_cases c2 : i < 32
      · obtain ⟨k, rfl⟩ := Nat.exists_eq_add_of_le (Nat.le_of_not_lt c1)
        rw [(h2 k (by omega)).1, List.getElem_append_left (by simp [hs, hp]; omega),
          List.getElem_append_right (by simp [hs])]
        simp [hs, hp, show k < 16 by omega]
      · obtain ⟨k, rfl⟩ := Nat.exists_eq_add_of_le (Nat.le_of_not_lt c2)
        rw [(h2 k (by omega)).2, List.getElem_append_right (by simp [hs, hp])]
        simp [hs, hp, show k < 16 by omega, show k < 48 by omega]

/-- Well-formed state. -/
def WF (d : State) : Prop := d.s.length = 48 ∧ d.digest.length = 16

theorem checkBlock_length (c : Bytes) : ∀ t p, c.length = p.length →
    (MD2.checkBlock t c p).length = c.length := by
  induction c with
  | nil => intro t p _; cases p <;> rfl
  | cons x c ih =>
    intro t p h
    cases p with
    | nil => simp at h
    | cons y p => simp [MD2.checkBlock, ih _ p (by simpa using h)]

theorem block_eq (d : State) (p : Bytes) (hd : WF d) (hp : p.length = 16) :
    (block d p).s = MD2.step d.s p ∧ (block d p).digest = MD2.checkStep d.digest p ∧
      WF (block d p) := by
  have hfl : (d.s.take 16 ++ p ++ List.zipWith (· ^^^ ·) p (d.s.take 16)).length = 48 := by
    simp [hd.1, hp]
  have h3 := forLoop_accum (fun i t x => x ^^^ sbox.getD (p.getD i 0 ^^^ t).toNat 0) (0 : Byte)
    d.digest [] (d.digest.getD 15 0)
  simp only [List.length_nil, Nat.zero_add, hd.2, List.nil_append] at h3
  have h4 := accum_check p d.digest [] p (d.digest.getD 15 0) rfl (by rw [hd.2, hp])
  have e1 : (block d p).s = MD2.step d.s p := by
    unfold block MD2.step
    simp only [fill_eq d.s p hd.1 hp, outer_eq _ hfl]
  have e2 : (block d p).digest = MD2.checkStep d.digest p := by
    unfold block MD2.checkStep
    simp only [h3]
    exact h4
  refine ⟨e1, e2, ?_, ?_⟩
  · rw [e1]; exact passes_length _ hfl 18
  · rw [e2]; unfold MD2.checkStep; rw [checkBlock_length _ _ _ (by rw [hd.2, hp]), hd.2]

theorem foldl_block (l : List Bytes) : ∀ (d : State), WF d → (∀ b ∈ l, b.length = 16) →
    (l.foldl block d).s = l.foldl MD2.step d.s ∧
    (l.foldl block d).digest = l.foldl MD2.checkStep d.digest ∧ WF (l.foldl block d) := by
  induction l with
  | nil => intro d hd _; exact ⟨rfl, rfl, hd⟩
  | cons b l ih =>
    intro d hd hl
    obtain ⟨e1, e2, w⟩ := block_eq d b hd (hl b (List.mem_cons_self))
    obtain ⟨f1, f2, w2⟩ := ih (block d b) w (fun x hx => hl x (List.mem_cons_of_mem _ hx))
    rw [e1] at f1; rw [e2] at f2
    simp only [List.foldl_cons]
    exact ⟨f1, f2, w2⟩

def s0 : State := ⟨zeros 48, zeros 16⟩

theorem s0_wf : WF s0 := ⟨zeros_length 48, zeros_length 16⟩

theorem WF_repr {d : Digest} {m : Bytes} (h : d.Repr 16 block s0 m) : WF d.s := by
  rw [h.buf.state]
  exact (foldl_block _ s0 s0_wf (fun b hb => mem_fullBlocks_length _ _ _ hb)).2.2

theorem checkSum_eq (d : Digest) (m : Bytes) (h : d.Repr 16 block s0 m) :
    checkSum d = some (MD2.hash m) := by
  have hnx := h.buf.nx_lt (by omega)
  have hnm := h.buf.nx_eq
  have h1 := h.absorb (by omega) (List.replicate (16 - d.nx) (BitVec.ofNat 8 (16 - d.nx)))
  have hpad : m ++ List.replicate (16 - d.nx) (BitVec.ofNat 8 (16 - d.nx)) = MD2.pad m := by
    simp only [MD2.pad, hnm]
  rw [hpad] at h1
  have hpl : (MD2.pad m).length % 16 = 0 := by simp [MD2.pad]; omega
  have hw1 := WF_repr h1
  have h2 := h1.absorb (by omega)
    (d.absorb 16 block (List.replicate (16 - d.nx) (BitVec.ofNat 8 (16 - d.nx)))).s.digest
  unfold checkSum
  simp only [write]
  have n1 := h1.buf.nx_eq
  have n2 := h2.buf.nx_eq
  rw [hpl] at n1
  rw [List.length_append, hw1.2, Nat.add_mod_right, hpl] at n2
  simp only [n1, n2, ne_eq, not_true_eq_false, if_false]
  have hs2 := h2.buf.state
  have hs1 := h1.buf.state
  rw [fullBlocks_append _ _ _ (by omega) hpl, fullBlocks_one _ _ (by omega) hw1.2, List.foldl_append] at hs2
  obtain ⟨f1, f2, w⟩ := foldl_block (fullBlocks 16 (MD2.pad m)) s0 s0_wf
    (fun b hb => mem_fullBlocks_length _ _ _ hb)
  rw [← hs1] at f1 f2 w hs2
  rw [hs2]
  simp only [List.foldl_cons, List.foldl_nil]
  rw [(block_eq _ _ w w.2).1, f1, f2]
  rfl

end Verif.MD2
