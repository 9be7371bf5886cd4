import Verif.Lemmas.JH1
import Verif.Lemmas.JH2Obj
import Verif.Lemmas.K12Sponge
import Verif.LoopBuf
namespace Verif.JH1
open Verif.JH
open Spec.JH (F8)
open Verif.Groestl (tb_length tb_at)

theorem iv_eq : tb jh256H0 = Spec.JH.iv 32 := by
  rw [← JH2.iv_eq 32 (Or.inr (Or.inl rfl))]
  decide +kernel

def St (x : List U64) (m : Bytes) : Prop := x.length = 16 ∧ tb x = (fullBlocks 64 m).foldl F8 (Spec.JH.iv 32)

structure Rep (d : Digest) (m : Bytes) : Prop where
  st : St d.x m
  hlen : d.len = BitVec.ofNat 64 (8 * m.length)
  sl : d.s.length = 64
  hnx : d.nx = 8 * (m.length % 64)
  pend : d.s.take (m.length % 64) = restBlock 64 m

theorem reset_rep (d : Digest) (h : d.s.length = 64) : Rep d.reset [] :=
  ⟨⟨rfl, by rw [fullBlocks_nil]; exact iv_eq⟩, rfl, h, rfl, rfl⟩

theorem st_block (x : List U64) (s m p : Bytes) (h : St x m) (hs : s.length = 64) (hp : s = restBlock 64 m ++ p) : St (f8 x s) (m ++ p) ∧ restBlock 64 (m ++ p) = [] := by
  obtain ⟨e1, e2⟩ := K12.fullBlocks_rest m p 64 (by omega)
  rw [← hp] at e1 e2
  rw [fullBlocks_one _ _ (by omega) hs] at e1
  obtain ⟨f1, f2⟩ := f8_eq x h.1 s hs
  refine ⟨⟨f2, by rw [f1, e1, List.foldl_append, ← h.2]; rfl⟩, ?_⟩
  rw [e2]
  apply List.eq_nil_of_length_eq_zero; rw [restBlock_length, hs]

theorem blocks_rep (fuel : Nat) (x : List U64) (s m p : Bytes) (h : St x m) (hs : s.length = 64) (hm : restBlock 64 m = []) (hf : p.length < fuel) :
    ∃ q, q ++ (blocks fuel (x, s) p).2 = p ∧ St (blocks fuel (x, s) p).1.1 (m ++ q) ∧ (blocks fuel (x, s) p).1.2.length = 64 ∧ restBlock 64 (m ++ q) = [] ∧
      (blocks fuel (x, s) p).2.length < 64 := by
  induction fuel generalizing x s m p with
  | zero => omega
  | succ fuel ih =>
    unfold blocks
    by_cases hc : p.length ≥ 64
    · rw [if_pos hc]
      dsimp only
      have ht : (p.take 64).length = 64 := by rw [List.length_take]; omega
      have hg : goCopy s 0 (p.take 64) = p.take 64 := goCopy_zero_all _ _ (by omega)
      rw [hg]
      obtain ⟨a1, a2⟩ := st_block x (p.take 64) m (p.take 64) h ht (by rw [hm]; rfl)
      obtain ⟨q, q1, q2, q3, q4, q5⟩ := ih (f8 x (p.take 64)) (p.take 64) (m ++ p.take 64) (p.drop 64) a1 ht a2 (by rw [List.length_drop]; omega)
      refine ⟨p.take 64 ++ q, by rw [List.append_assoc, q1, List.take_append_drop], ?_, q3, ?_, q5⟩
      · rw [← List.append_assoc]; exact q2
      · rw [← List.append_assoc]; exact q4
    · rw [if_neg hc]
      exact ⟨[], rfl, by rw [List.append_nil]; exact h, hs, by rw [List.append_nil]; exact hm, by dsimp only; omega⟩

theorem len_add (a b : Nat) : BitVec.ofNat 64 (8 * a) + BitVec.ofNat 64 (b * 8) = BitVec.ofNat 64 (8 * (a + b)) := by
  rw [← BitVec.ofNat_add]; congr 1; omega

/-- The end of Write. -/
theorem tail_rep (d : Digest) (x : List U64) (s m p : Bytes) (h : St x m) (hs : s.length = 64) (hm : restBlock 64 m = []) (len : U64) (hl : len = BitVec.ofNat 64 (8 * (m ++ p).length))
    (fuel : Nat) (hf : p.length < fuel) (n : Nat) :
    ∃ d', (if (blocks fuel (x, s) p).2.length > 0 then
        some ({ d with len := len, x := (blocks fuel (x, s) p).1.1, s := goCopy (blocks fuel (x, s) p).1.2 0 ((blocks fuel (x, s) p).2.take (blocks fuel (x, s) p).2.length),
                       nx := (blocks fuel (x, s) p).2.length * 8 }, n)
      else some ({ d with len := len, x := (blocks fuel (x, s) p).1.1, s := (blocks fuel (x, s) p).1.2, nx := 0 }, n)) = some (d', n) ∧ Rep d' (m ++ p) := by
  obtain ⟨q, q1, q2, q3, q4, q5⟩ := blocks_rep fuel x s m p h hs hm hf
  generalize blocks fuel (x, s) p = r at q1 q2 q3 q5
  have hml : (m ++ q).length % 64 = 0 := by rw [← restBlock_length, q4]; rfl
  have hp : m ++ p = (m ++ q) ++ r.2 := by rw [List.append_assoc, q1]
  obtain ⟨e1, e2⟩ := K12.fullBlocks_rest (m ++ q) r.2 64 (by omega)
  rw [q4, List.nil_append] at e1 e2
  rw [fullBlocks_lt _ _ q5, List.append_nil] at e1
  rw [restBlock_lt _ _ q5] at e2
  have hmod : (m ++ p).length % 64 = r.2.length := by rw [hp, List.length_append]; omega
  have hst : St r.1.1 (m ++ p) := ⟨q2.1, by rw [hp, e1]; exact q2.2⟩
  have hrest : restBlock 64 (m ++ p) = r.2 := by rw [hp]; exact e2
  by_cases hc : r.2.length > 0
  · refine ⟨_, if_pos hc, hst, hl, ?_, ?_, ?_⟩
    · show (goCopy _ _ _).length = _; rw [goCopy_length _ _ _ (by omega)]; exact q3
    · show r.2.length * 8 = _; rw [hmod]; omega
    · show (goCopy r.1.2 0 (r.2.take r.2.length)).take ((m ++ p).length % 64) = _
      rw [hmod, hrest, List.take_of_length_le (l := r.2) (by omega)]
      have := goCopy_take r.1.2 0 r.2 (by omega)
      rw [Nat.zero_add, List.take_zero, List.nil_append] at this
      exact this
  · refine ⟨_, if_neg hc, hst, hl, q3, ?_, ?_⟩
    · show 0 = _; rw [hmod]; omega
    · show r.1.2.take ((m ++ p).length % 64) = _
      rw [hmod, hrest]
      have : r.2 = [] := List.eq_nil_of_length_eq_zero (by omega)
      rw [this]; rfl

/-- Write keeps the correspondence when it does not reach behind the memory of the slice. -/
theorem write_rep (d : Digest) (m p spare : Bytes) (h : Rep d m) (hok : m.length % 64 = 0 ∨ 64 ≤ m.length % 64 + (p.length + spare.length)) :
    ∃ d', d.write p spare = some (d', p.length) ∧ Rep d' (m ++ p) := by
  have hnx := h.hnx
  have hl := h.hlen
  have hsl := h.sl
  have hmod : m.length % 64 < 64 := Nat.mod_lt _ (by omega)
  have hrl : (restBlock 64 m).length = m.length % 64 := restBlock_length _ _
  have hlen : d.len + BitVec.ofNat 64 (p.length * 8) = BitVec.ofNat 64 (8 * (m ++ p).length) := by rw [hl, len_add, List.length_append]
  have h8 : d.nx / 8 = m.length % 64 := by omega
  unfold Digest.write
  dsimp only
  by_cases hc : d.nx > 0 ∧ d.nx + p.length * 8 < 512
  · rw [if_pos hc]
    obtain ⟨e1, e2⟩ := K12.fullBlocks_rest m p 64 (by omega)
    have hll : (restBlock 64 m ++ p).length < 64 := by rw [List.length_append]; omega
    rw [fullBlocks_lt _ _ hll, List.append_nil] at e1
    rw [restBlock_lt _ _ hll] at e2
    have hm2 : (m ++ p).length % 64 = m.length % 64 + p.length := by rw [← restBlock_length, e2, List.length_append, hrl]
    rw [if_pos (by omega)]
    refine ⟨_, rfl, ⟨h.st.1, by rw [e1]; exact h.st.2⟩, hlen, ?_, ?_, ?_⟩
    · show (goCopy _ _ _).length = _; rw [goCopy_length _ _ _ (by omega)]; exact hsl
    · show d.nx + p.length * 8 = _; rw [hm2]; omega
    · show (goCopy d.s (d.nx / 8) ((p ++ spare).take (64 - d.nx / 8))).take _ = _
      rw [h8, hm2, e2]
      have ht : ((p ++ spare).take (64 - m.length % 64)).length = 64 - m.length % 64 := by rw [List.length_take, List.length_append]; omega
      have g := goCopy_take d.s (m.length % 64) ((p ++ spare).take (64 - m.length % 64)) (by omega)
      have gl : (goCopy d.s (m.length % 64) ((p ++ spare).take (64 - m.length % 64))).length = 64 := by rw [goCopy_length _ _ _ (by omega)]; exact hsl
      rw [ht, List.take_of_length_le (by omega), h.pend] at g
      rw [g, List.take_append, hrl, List.take_of_length_le (by omega), show m.length % 64 + p.length - m.length % 64 = p.length by omega, List.take_take,
        Nat.min_eq_left (by omega), List.take_left]
  · rw [if_neg hc]
    by_cases hz : d.nx > 0
    · rw [if_pos hz, if_pos hz]
      dsimp only
      have ht : (p.take (64 - m.length % 64)).length = 64 - m.length % 64 := by rw [List.length_take]; omega
      have hg : goCopy d.s (m.length % 64) (p.take (64 - m.length % 64)) = restBlock 64 m ++ p.take (64 - m.length % 64) := by
        rw [goCopy_end _ _ _ (by omega), h.pend]
      rw [h8, hg]
      have hl64 : (restBlock 64 m ++ p.take (64 - m.length % 64)).length = 64 := by rw [List.length_append, ht]; omega
      obtain ⟨a1, a2⟩ := st_block d.x _ m (p.take (64 - m.length % 64)) h.st hl64 rfl
      have := tail_rep d (f8 d.x (restBlock 64 m ++ p.take (64 - m.length % 64))) (restBlock 64 m ++ p.take (64 - m.length % 64)) (m ++ p.take (64 - m.length % 64))
        (p.drop (64 - m.length % 64)) a1 hl64 a2 (d.len + BitVec.ofNat 64 (p.length * 8)) (by rw [List.append_assoc, List.take_append_drop]; exact hlen) (p.length + 1)
        (by rw [List.length_drop]; omega) p.length
      rw [List.append_assoc, List.take_append_drop] at this
      exact this
    · rw [if_neg hz, if_neg hz]
      dsimp only
      have hm0 : restBlock 64 m = [] := List.eq_nil_of_length_eq_zero (by omega)
      exact tail_rep d d.x d.s m p h.st hsl hm0 _ hlen (p.length + 1) (by omega) p.length

theorem write_panics (d : Digest) (m p spare : Bytes) (h : Rep d m) (h0 : 0 < m.length % 64) (hs : m.length % 64 + (p.length + spare.length) < 64) : d.write p spare = none := by
  have hnx := h.hnx
  unfold Digest.write
  dsimp only
  rw [if_pos (by omega), if_neg (by omega)]

theorem out_eq (x : List U64) (hl : x.length = 16) : le64 (x.getD 12 0) ++ le64 (x.getD 13 0) ++ le64 (x.getD 14 0) ++ le64 (x.getD 15 0) = (tb x).drop 96 := by
  have e : x = x.take 12 ++ [x.getD 12 0, x.getD 13 0, x.getD 14 0, x.getD 15 0] := by
    apply List.ext_getElem
    · simp [hl]
    · intro i h1 h2
      by_cases h : i < 12
      · rw [List.getElem_append_left (by simp; omega)]; simp
      · rw [List.getElem_append_right (by simp; omega)]
        simp only [List.length_take, hl]
        have hi : i < 16 := by omega
        have : i = 12 ∨ i = 13 ∨ i = 14 ∨ i = 15 := by omega
        rcases this with rfl | rfl | rfl | rfl <;> simp [hl, List.getD_eq_getElem?_getD]
  have hd : tb x = tb (x.take 12) ++ tb [x.getD 12 0, x.getD 13 0, x.getD 14 0, x.getD 15 0] := by rw [← Groestl.tb_append, ← e]
  rw [hd, List.drop_left' (by rw [tb_length, List.length_take, hl]; rfl)]
  simp [Groestl.uint64sToBytes]

theorem len_mod (n : Nat) (hn : n < 2 ^ 61) : (BitVec.ofNat 64 (8 * n) &&& 0x1ff : U64).toNat = 8 * (n % 64) := by
  rw [BitVec.toNat_and, BitVec.toNat_ofNat, show (0x1ff : U64).toNat = 2 ^ 9 - 1 from rfl, Nat.and_two_pow_sub_one_eq_mod]
  simp only [Nat.reducePow] at *
  omega

theorem len_mod7 (n : Nat) (hn : n < 2 ^ 61) : (BitVec.ofNat 64 (8 * n) &&& 7 : U64).toNat = 0 := by
  rw [BitVec.toNat_and, BitVec.toNat_ofNat, show (7 : U64).toNat = 2 ^ 3 - 1 from rfl, Nat.and_two_pow_sub_one_eq_mod]
  simp only [Nat.reducePow] at *
  omega

theorem checkSum_eq (d : Digest) (m : Bytes) (h : Rep d m) (hm : m.length < 2 ^ 61) : d.checkSum = Spec.JH.hash 32 m := by
  have hmod := len_mod m.length hm
  have hlen := h.hlen
  have hsl := h.sl
  have hrl : (restBlock 64 m).length = m.length % 64 := restBlock_length _ _
  have hhi : BitVec.ofNat 64 (8 * m.length / 2 ^ 64) = 0 := by rw [Nat.div_eq_of_lt (by omega)]; rfl
  -- the state before the output
  suffices hx : ∃ x, St x (Spec.JH.pad m) ∧ d.checkSum = le64 (x.getD 12 0) ++ le64 (x.getD 13 0) ++ le64 (x.getD 14 0) ++ le64 (x.getD 15 0) by
    obtain ⟨x, h1, h2⟩ := hx
    rw [h2, out_eq x h1.1, h1.2]; rfl
  refine ⟨_, ?_, rfl⟩
  rw [hlen]
  by_cases hc : (BitVec.ofNat 64 (8 * m.length) &&& 0x1ff : U64) = 0
  · rw [if_pos hc]
    dsimp only
    have h0 : m.length % 64 = 0 := by rw [hc] at hmod; simp at hmod; omega
    have hr : restBlock 64 m = [] := List.eq_nil_of_length_eq_zero (by omega)
    have e : goCopy ((zeros 64).set 0 0x80) 56 (be64 (BitVec.ofNat 64 (8 * m.length))) = 0x80 :: zeros 47 ++ (be64 0 ++ be64 (BitVec.ofNat 64 (8 * m.length))) := by
      rw [goCopy_end _ _ _ (by rw [be64_length]; rfl)]
      generalize be64 (BitVec.ofNat 64 (8 * m.length)) = b
      rw [← List.append_assoc]; congr 1
    have := (st_block d.x (goCopy ((zeros 64).set 0 0x80) 56 (be64 (BitVec.ofNat 64 (8 * m.length)))) m
      (0x80 :: zeros 47 ++ (be64 0 ++ be64 (BitVec.ofNat 64 (8 * m.length)))) h.st (by rw [goCopy_length _ _ _ (by simp)]; rfl) (by rw [hr, e]; rfl)).1
    unfold Spec.JH.pad
    rw [h0, hhi]
    exact this
  · rw [if_neg hc]
    dsimp only
    have h0 : ¬ m.length % 64 = 0 := by
      intro h0; apply hc; apply BitVec.eq_of_toNat_eq; rw [hmod, h0]; rfl
    have hk : ((BitVec.ofNat 64 (8 * m.length) &&& 0x1ff : U64) >>> 3).toNat = m.length % 64 := by
      rw [BitVec.toNat_ushiftRight, hmod, Nat.shiftRight_eq_div_pow]; omega
    rw [hk, len_mod7 _ hm]
    have hlt : m.length % 64 < 64 := Nat.mod_lt _ (by omega)
    have hpd := h.pend
    generalize hn : m.length % 64 = n at *
    have eg : goCopy d.s n (zeros (64 - n)) = restBlock 64 m ++ zeros (64 - n) := by
      rw [goCopy_end _ _ _ (by rw [zeros_length]; omega), hpd]
    have ez : zeros (64 - n) = 0 :: zeros (63 - n) := by rw [show 64 - n = (63 - n) + 1 by omega]; rfl
    have eat : at8 (restBlock 64 m ++ zeros (64 - n)) n = 0 := by
      unfold at8
      rw [List.getD_eq_getElem?_getD, List.getElem?_append_right (by omega), hrl, Nat.sub_self, ez]; rfl
    have eset : ∀ v : Byte, v = 0x80 → (restBlock 64 m ++ zeros (64 - n)).set n v = restBlock 64 m ++ (0x80 :: zeros (63 - n)) := by
      intro v hv
      rw [List.set_append_right _ _ (by omega), hrl, Nat.sub_self, ez, List.set_cons_zero, hv]
    rw [eg, eat, eset _ (by decide)]
    have l1 : (restBlock 64 m ++ (0x80 :: zeros (63 - n)) : Bytes).length = 64 := by rw [List.length_append, hrl, List.length_cons, zeros_length]; omega
    obtain ⟨a1, a2⟩ := st_block d.x _ m (0x80 :: zeros (63 - n)) h.st l1 rfl
    have e2 : goCopy (zeros 64) 56 (be64 (BitVec.ofNat 64 (8 * m.length))) = zeros 56 ++ be64 (BitVec.ofNat 64 (8 * m.length)) := by
      rw [goCopy_end _ _ _ (by rw [be64_length]; rfl)]; rfl
    have := (st_block _ (goCopy (zeros 64) 56 (be64 (BitVec.ofNat 64 (8 * m.length)))) (m ++ (0x80 :: zeros (63 - n)))
      (zeros 56 ++ be64 (BitVec.ofNat 64 (8 * m.length))) a1 (by rw [goCopy_length _ _ _ (by simp)]; rfl) (by rw [a2, e2]; rfl)).1
    unfold Spec.JH.pad
    rw [hn, hhi, show 47 + (64 - n) % 64 = (63 - n) + 48 by omega, zeros_add]
    have e3 : m ++ (0x80 :: (zeros (63 - n) ++ zeros 48) ++ (be64 0 ++ be64 (BitVec.ofNat 64 (8 * m.length)))) =
        m ++ (0x80 :: zeros (63 - n)) ++ (zeros 56 ++ be64 (BitVec.ofNat 64 (8 * m.length))) := by
      rw [show zeros 56 = zeros 48 ++ be64 0 from rfl]
      simp only [List.append_assoc, List.cons_append]
    rw [e3]
    exact this

end Verif.JH1
