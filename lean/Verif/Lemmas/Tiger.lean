import Verif.Spec.Tiger
import Verif.Model.Tiger
import Verif.Bits
/-
Lemmas connecting the tiger model with the paper.
-/
namespace Verif.Tiger


/-- The S-boxes of the code. -/
def boxes : Spec.Tiger.SBoxes where
  t1 i := t1.getD i.toNat 0
  t2 i := t2.getD i.toNat 0
  t3 i := t3.getD i.toNat 0
  t4 i := t4.getD i.toNat 0

theorem look_eq (t : List U64) (c : U64) (i k : Nat) (hk : k = 8 * i) :
    look t c k = t.getD (Spec.Tiger.byte c i).toNat 0 := by
  unfold look Spec.Tiger.byte
  subst hk
  congr 1
  rw [BitVec.toNat_and, BitVec.extractLsb'_toNat, BitVec.toNat_ushiftRight]
  exact Nat.and_two_pow_sub_one_eq_mod _ 8

theorem round_eq (a b c x mul : U64) : Spec.Tiger.round boxes (a, b, c) x mul =
    ((round a b c x mul).2.1, (round a b c x mul).2.2, (round a b c x mul).1) := by
  simp only [round, Spec.Tiger.round, boxes, ← look_eq _ _ 0 0 rfl, ← look_eq _ _ 1 8 rfl,
    ← look_eq _ _ 2 16 rfl, ← look_eq _ _ 3 24 rfl, ← look_eq _ _ 4 32 rfl, ← look_eq _ _ 5 40 rfl,
    ← look_eq _ _ 6 48 rfl, ← look_eq _ _ 7 56 rfl]

theorem pass_eq (a b c mul : U64) (x0 x1 x2 x3 x4 x5 x6 x7 : U64) :
    Spec.Tiger.pass boxes mul (a, b, c) [x0, x1, x2, x3, x4, x5, x6, x7] =
    (let r := pass a b c [x0, x1, x2, x3, x4, x5, x6, x7] mul; (r.2.2, r.1, r.2.1)) := by
  simp only [Spec.Tiger.pass, List.foldl_cons, List.foldl_nil, round_eq, pass, List.getD_cons_zero,
    List.getD_cons_succ]

theorem keySchedule_eq (x0 x1 x2 x3 x4 x5 x6 x7 : U64) :
    keySchedule [x0, x1, x2, x3, x4, x5, x6, x7] = Spec.Tiger.keySchedule [x0, x1, x2, x3, x4, x5, x6, x7] := by
  simp only [keySchedule, Spec.Tiger.keySchedule, List.set_cons_zero, List.set_cons_succ,
    List.getD_cons_zero, List.getD_cons_succ]

theorem words_eq (p : Bytes) (h : p.length = 64) : bytesToUint64s p = Spec.Tiger.words p := by
  unfold bytesToUint64s Spec.Tiger.words
  rw [h]
  simp only [Nat.mul_comm]

def trip (s : List U64) : U64 × U64 × U64 := (s.getD 0 0, s.getD 1 0, s.getD 2 0)

theorem compress_eq (s : List U64) (p : Bytes) (h : p.length = 64) :
    trip (compress s p) = Spec.Tiger.compress boxes (trip s) p := by
  unfold compress Spec.Tiger.compress
  rw [words_eq p h]
  have hx : ∃ x0 x1 x2 x3 x4 x5 x6 x7, Spec.Tiger.words p = [x0, x1, x2, x3, x4, x5, x6, x7] :=
    ⟨_, _, _, _, _, _, _, _, rfl⟩
  have hk : ∀ l : List U64, l.length = 8 → ∃ x0 x1 x2 x3 x4 x5 x6 x7, l = [x0, x1, x2, x3, x4, x5, x6, x7] := by
    intro l hl
    match l, hl with
    | [a, b, c, d, e, f, g, h], _ => exact ⟨_, _, _, _, _, _, _, _, rfl⟩
  obtain ⟨x0, x1, x2, x3, x4, x5, x6, x7, hx⟩ := hx
  rw [hx]
  obtain ⟨y0, y1, y2, y3, y4, y5, y6, y7, hy⟩ := hk (Spec.Tiger.keySchedule [x0, x1, x2, x3, x4, x5, x6, x7]) rfl
  obtain ⟨z0, z1, z2, z3, z4, z5, z6, z7, hz⟩ := hk (Spec.Tiger.keySchedule [y0, y1, y2, y3, y4, y5, y6, y7]) rfl
  simp only [keySchedule_eq, hy, hz, pass_eq, trip, List.getD_cons_zero, List.getD_cons_succ]

theorem compress_length (s : List U64) (p : Bytes) : (compress s p).length = 3 := rfl

theorem foldl_eq (l : List Bytes) : ∀ (s : List U64), (∀ b ∈ l, b.length = 64) →
    trip (l.foldl compress s) = l.foldl (Spec.Tiger.compress boxes) (trip s) := by
  induction l with
  | nil => intro s _; rfl
  | cons b l ih =>
    intro s h
    rw [List.foldl_cons, List.foldl_cons, ih _ (fun x hx => h x (List.mem_cons_of_mem _ hx)),
      compress_eq s b (h b List.mem_cons_self)]

theorem foldl_length (l : List Bytes) : ∀ (s : List U64), s.length = 3 → (l.foldl compress s).length = 3 := by
  induction l with
  | nil => intro s h; exact h
  | cons b l ih => intro s _; exact ih _ (compress_length s b)

theorem out_eq (s : List U64) (h : s.length = 3) : (s.map le64).flatten =
    le64 (trip s).1 ++ le64 (trip s).2.1 ++ le64 (trip s).2.2 := by
  match s, h with
  | [a, b, c], _ => simp [trip]

/-- The marker byte of the version. -/
def marker (ver : Nat) : Byte := if ver = 1 then 0x01#8 else 0x80#8

theorem checkSum_eq (hs ver : Nat) (hh : hs ≤ 24) (d : Digest) (m : Bytes) (h : d.Repr 64 compress initH m) :
    checkSum hs ver d = (Spec.Tiger.hash boxes (marker ver) m).take hs := by
  have hl : (d.len &&& 0x3f#64).toNat = m.length % 64 := by
    rw [h.len_eq, BitVec.toNat_and, BitVec.toNat_ofNat]
    exact (Nat.and_two_pow_sub_one_eq_mod _ 6).trans (by omega)
  have hl8 : d.len <<< 3 = BitVec.ofNat 64 (8 * m.length) := by
    rw [h.len_eq]; apply BitVec.eq_of_toNat_eq; simp [Nat.shiftLeft_eq]; omega
  have h1 := h.absorb (by omega) ((marker ver :: zeros 63).take (if m.length % 64 < 56 then 56 - m.length % 64
    else 64 + 56 - m.length % 64))
  have h2 := h1.absorb (by omega) (le64 (BitVec.ofNat 64 (8 * m.length)))
  rw [mdPad_written _ _ _ (le64_length _)] at h2
  have hst := h2.buf.state
  unfold checkSum write
  simp only [hl, hl8]
  rw [show (if ver = 1 then 0x01#8 else 0x80#8) = marker ver from rfl, hst,
    out_eq _ (foldl_length _ _ rfl), foldl_eq _ _ (fun b hb => mem_fullBlocks_length _ _ _ hb)]
  rw [List.take_append_of_le_length (by simp; omega)]
  rfl

end Verif.Tiger
