import Verif.Lemmas.Ascon
import Verif.BufferX
namespace Verif.Ascon

theorem padTail {x : Bytes} {B nx : Nat} (hx : x.length = B) (hn : nx < B) :
    (forLoop nx B (fun (buf : Bytes) i => buf.set i 0#8) x).set nx
      (at8 (forLoop nx B (fun (buf : Bytes) i => buf.set i 0#8) x) nx ||| 0x80#8) = x.take nx ++ [0x80#8] ++ zeros (B - 1 - nx) := by
  rw [zeroLoop_eq _ _ _ (by omega) (by omega), List.drop_eq_nil_of_le (by omega), List.append_nil]
  have hl : (x.take nx).length = nx := by rw [List.length_take]; omega
  have e2 : zeros (B - nx) = 0#8 :: zeros (B - 1 - nx) := by
    rw [show B - nx = (B - 1 - nx) + 1 by omega]; rfl
  have e3 : at8 (x.take nx ++ 0#8 :: zeros (B - 1 - nx)) nx = 0#8 := by
    unfold at8
    simp [List.getD_eq_getElem?_getD, List.getElem?_append, hl]
  rw [e2, e3, List.set_append, if_neg (by omega), hl, Nat.sub_self, List.set_cons_zero]
  simp

/-- One block of the hash. -/
def hBlock (b : Nat) (s : State) (m : Bytes) : State := rounds (s.xor0 (getBE64 m)) b

theorem hashAbsorb_snoc (b : Nat) (m : Bytes) (ms : List Bytes) : ∀ s, Spec.Ascon.hashAbsorb b s (ms ++ [m]) =
    Spec.Ascon.p 12 (Spec.Ascon.absorb (ms.foldl (fun s m => Spec.Ascon.p b (Spec.Ascon.absorb s m)) s) m) := by
  induction ms with
  | nil => intro s; rfl
  | cons a ms ih =>
    intro s
    rw [List.foldl_cons, ← ih]
    cases ms <;> rfl

theorem finish_spec {d : Digest} {s₀ : State} {m : Bytes} (hb : d.b ≤ 12)
    (h : BufRepr 8 (hBlock d.b) s₀ d.s d.buf d.len m) :
    ∃ d', finish d = some d' ∧ toS d'.s = Spec.Ascon.hashAbsorb d.b (toS s₀) (Spec.Ascon.pad 8 m) ∧ d'.len = 0 ∧ d'.b = d.b ∧ d'.doneWriting = d.doneWriting := by
  have hlt := h.nx_lt (by decide)
  unfold finish
  rw [if_neg (by omega)]
  refine ⟨_, rfl, ?_, rfl, rfl, rfl⟩
  show toS (rounds (d.s.xor0 (getBE64 _)) 12) = _
  rw [padTail h.xlen hlt, rounds_eq _ 12 (by decide), toS_xor0, pad_eq 8 m (by decide), hashAbsorb_snoc, h.pend, h.nx_eq]
  have := foldl_sim toS (hBlock d.b) (fun s m => Spec.Ascon.p d.b (Spec.Ascon.absorb s m)) (fun s a => by
    unfold hBlock; rw [rounds_eq _ _ hb, toS_xor0]) (fullBlocks 8 m) s₀
  rw [← this, ← h.state]

theorem sum_spec {d : Digest} {s₀ : State} {m : Bytes} (out : Bytes) (hb : d.b ≤ 12)
    (h : BufRepr 8 (hBlock d.b) s₀ d.s d.buf d.len m) (hs : toS s₀ = Spec.Ascon.hashInit d.b 256) :
    sum d out = some (out ++ Spec.Ascon.hash d.b m) := by
  obtain ⟨d', e1, e2, e3, e4, e5⟩ := finish_spec hb h
  unfold sum
  rw [e1]
  simp only
  rw [hs] at e2
  unfold Spec.Ascon.hash Spec.Ascon.stream
  rw [← e2]
  have r : ∀ s, (rounds s d.b).s0 = (Spec.Ascon.p d.b (toS s)).x0 := by intro s; rw [← rounds_eq _ _ hb]; rfl
  have r2 : ∀ s, toS (rounds s d.b) = Spec.Ascon.p d.b (toS s) := fun s => rounds_eq s _ hb
  have z : d'.s.s0 = (toS d'.s).x0 := rfl
  simp [forLoop, List.range', List.range, List.range.loop, Spec.Ascon.squeeze, e4, r, r2, z, List.append_assoc]

/-! ### The extendable output -/

/-- State `i` of the output phase. -/
def st (t : Spec.Ascon.S) : Nat → Spec.Ascon.S
  | 0 => t
  | i + 1 => Spec.Ascon.p 12 (st t i)
theorem st_succ (t : Spec.Ascon.S) (i : Nat) : st t (i + 1) = Spec.Ascon.p 12 (st t i) := rfl
theorem st_p (t : Spec.Ascon.S) : ∀ i, st (Spec.Ascon.p 12 t) i = Spec.Ascon.p 12 (st t i)
  | 0 => rfl
  | i + 1 => by rw [st_succ, st_succ, st_p t i]
theorem squeeze_st : ∀ (i : Nat) (t : Spec.Ascon.S), Spec.Ascon.squeeze 12 t i = (st t i).x0
  | 0, _ => rfl
  | i + 1, t => by rw [Spec.Ascon.squeeze, squeeze_st i, st_p, st_succ]
/-- Byte `i` of the output. -/
def byteAt (t : Spec.Ascon.S) (i : Nat) : Byte := at8 (be64 (st t (i / 8)).x0) (i % 8)

theorem at8_flatten8 (g : Nat → Bytes) (hg : ∀ i, (g i).length = 8) : ∀ n i, i / 8 < n →
    at8 ((List.range n).map g).flatten i = at8 (g (i / 8)) (i % 8) := by
  intro n
  induction n with
  | zero => intro i h; omega
  | succ n ih =>
    intro i h
    have hl : ((List.range n).map g).flatten.length = 8 * n := by
      have := flatten_len (l := (List.range n).map g) (by
        intro b hb; obtain ⟨j, _, rfl⟩ := List.mem_map.mp hb; exact hg j)
      rw [this, List.length_map, List.length_range]
    rw [List.range_succ, List.map_append, List.flatten_append]
    by_cases hi : i / 8 < n
    · rw [← ih i hi]
      unfold at8
      rw [List.getD_eq_getElem?_getD, List.getD_eq_getElem?_getD, List.getElem?_append_left (by omega)]
    · have : i / 8 = n := by omega
      unfold at8
      rw [List.getD_eq_getElem?_getD, List.getD_eq_getElem?_getD, List.getElem?_append_right (by omega), hl, this,
        show i - 8 * n = i % 8 by omega]
      simp

theorem xof_byte (m : Bytes) (i : Nat) :
    Spec.Ascon.xof m i = byteAt (Spec.Ascon.hashAbsorb 12 (Spec.Ascon.hashInit 12 0) (Spec.Ascon.pad 8 m)) i := by
  unfold Spec.Ascon.xof Spec.Ascon.stream
  rw [at8_flatten8 (fun i => be64 (Spec.Ascon.squeeze 12 _ i)) (fun i => rfl) _ _ (by omega)]
  rw [squeeze_st]
  rfl

/-- Part of one block of the output. -/
theorem seg (t : Spec.Ascon.S) (j a c : Nat) (h : a + c ≤ 8) :
    (List.range' (8 * j + a) c).map (byteAt t) = ((be64 (st t j).x0).drop a).take c := by
  apply List.ext_getElem?
  intro i
  by_cases hi : i < c
  · rw [List.getElem?_map, List.getElem?_range' (by omega), List.getElem?_take_of_lt hi, List.getElem?_drop]
    simp only [Option.map_some, Nat.one_mul]
    unfold byteAt at8
    rw [show (8 * j + a + i) / 8 = j by omega, show (8 * j + a + i) % 8 = a + i by omega, List.getD_eq_getElem?_getD]
    rw [List.getElem?_eq_getElem (by rw [be64_length]; omega)]
    rfl
  · rw [List.getElem?_eq_none (by simp; omega), List.getElem?_eq_none (by simp; omega)]

theorem readBlocks_spec (t : Spec.Ascon.S) : ∀ fuel s n j, n ≤ fuel → toS s = st t j →
    toS (readBlocks 12 fuel s n).1 = st t (j + n / 8) ∧
    (readBlocks 12 fuel s n).2 = (List.range' (8 * (j + 1)) (n / 8 * 8)).map (byteAt t) := by
  intro fuel
  induction fuel with
  | zero => intro s n j h hs; have : n = 0 := by omega
            subst this; exact ⟨hs, rfl⟩
  | succ k ih =>
    intro s n j h hs
    unfold readBlocks
    by_cases hn : 8 ≤ n
    · rw [if_pos hn]
      have h1 : toS (rounds s 12) = st t (j + 1) := by rw [rounds_eq _ _ (by decide), hs, st_succ]
      obtain ⟨g1, g2⟩ := ih (rounds s 12) (n - 8) (j + 1) (by omega) h1
      refine ⟨?_, ?_⟩
      · show toS (readBlocks 12 k (rounds s 12) (n - 8)).1 = _
        rw [g1, show j + 1 + (n - 8) / 8 = j + n / 8 by omega]
      · show be64 (rounds s 12).s0 ++ (readBlocks 12 k (rounds s 12) (n - 8)).2 = _
        rw [g2, show n / 8 * 8 = 8 + (n - 8) / 8 * 8 by omega, ← List.range'_append_1, List.map_append]
        have := seg t (j + 1) 0 8 (by decide)
        rw [Nat.add_zero] at this
        rw [this, ← h1]
        rfl
    · rw [if_neg hn, Nat.div_eq_of_lt (by omega)]
      exact ⟨hs, rfl⟩

/-- The state of an `Xof` after `k` bytes of the output from `t`. -/
def Reading (t : Spec.Ascon.S) (k : Nat) (d : Digest) : Prop :=
  d.b = 12 ∧ d.doneWriting = true ∧
  (k = 0 ∧ d.len = 0 ∧ toS d.s = st t 0 ∨
   k % 8 = 0 ∧ 0 < k ∧ d.len = 8 ∧ toS d.s = st t (k / 8 - 1) ∨
   k % 8 ≠ 0 ∧ d.len = k % 8 ∧ toS d.s = st t (k / 8) ∧ d.buf = be64 d.s.s0)

theorem readRest_spec {t : Spec.Ascon.S} {d : Digest} {j : Nat} (n : Nat) (hb : d.b = 12) (hd : d.doneWriting = true) (hl : d.len = 8)
    (hs : toS d.s = st t j) : Reading t (8 * (j + 1) + n) (readRest d n).1 ∧
      (readRest d n).2 = (List.range' (8 * (j + 1)) n).map (byteAt t) := by
  obtain ⟨g1, g2⟩ := readBlocks_spec t n d.s n j (Nat.le_refl _) hs
  unfold readRest
  simp only [hb, hl]
  by_cases hn : n % 8 > 0
  · rw [if_pos hn, if_pos True.intro]
    have h1 : toS (rounds (readBlocks 12 n d.s n).1 12) = st t (j + n / 8 + 1) := by rw [rounds_eq _ _ (by decide), g1, st_succ]
    refine ⟨⟨rfl, hd, Or.inr (Or.inr ⟨by omega, ?_, ?_, rfl⟩)⟩, ?_⟩
    · show n % 8 = _; omega
    · show toS (rounds (readBlocks 12 n d.s n).1 12) = _
      rw [h1, show (8 * (j + 1) + n) / 8 = j + n / 8 + 1 by omega]
    · have hnn : n = n / 8 * 8 + n % 8 := by omega
      conv => rhs; rw [hnn]
      rw [← List.range'_append_1, List.map_append, g2]
      have := seg t (j + n / 8 + 1) 0 (n % 8) (by omega)
      rw [← h1] at this
      rw [show 8 * (j + 1) + n / 8 * 8 = 8 * (j + n / 8 + 1) + 0 by omega, this]
      rfl
  · rw [if_neg hn]
    refine ⟨⟨rfl, hd, Or.inr (Or.inl ⟨by omega, by omega, rfl, ?_⟩)⟩, ?_⟩
    · show toS (readBlocks 12 n d.s n).1 = _
      rw [g1, show (8 * (j + 1) + n) / 8 - 1 = j + n / 8 by omega]
    · show (readBlocks 12 n d.s n).2 = _
      rw [g2, show n / 8 * 8 = n by omega]

theorem readTail_spec {t : Spec.Ascon.S} {d : Digest} {k : Nat} (n : Nat) (hn : 0 < n) (h : Reading t k d) (hk : k % 8 = 0) :
    Reading t (k + n) (readTail d n).1 ∧ (readTail d n).2 = (List.range' k n).map (byteAt t) := by
  obtain ⟨hb, hd, h⟩ := h
  unfold readTail
  rcases h with ⟨h1, h2, h3⟩ | ⟨h1, h2, h3, h4⟩ | ⟨h1, _⟩
  · subst h1
    by_cases hc : n ≥ 8
    · rw [if_pos ⟨hc, h2⟩]
      obtain ⟨g1, g2⟩ := readRest_spec (t := t) (d := { d with len := 8 }) (j := 0) (n - 8) hb hd rfl h3
      rw [show 8 * (0 + 1) + (n - 8) = 0 + n by omega] at g1
      refine ⟨g1, ?_⟩
      show be64 d.s.s0 ++ (readRest _ _).2 = _
      rw [g2]
      conv => rhs; rw [show n = 8 + (n - 8) by omega]
      rw [← List.range'_append_1, List.map_append]
      have := seg t 0 0 8 (by decide)
      rw [← h3] at this
      have e : List.range' 0 8 = List.range' (8 * 0 + 0) 8 := rfl
      rw [e, this]
      rfl
    · rw [if_neg (by omega)]
      have hrb : readBlocks 12 n d.s n = (d.s, []) := by
        cases n with
        | zero => rfl
        | succ n => unfold readBlocks; rw [if_neg (by omega)]
      unfold readRest
      simp only [hb, h2, hrb]
      rw [if_pos (by omega), if_neg (by decide)]
      refine ⟨⟨rfl, hd, Or.inr (Or.inr ⟨by omega, ?_, ?_, rfl⟩)⟩, ?_⟩
      · show n % 8 = _; omega
      · show toS d.s = _
        rw [h3, show (0 + n) / 8 = 0 by omega]
      · have := seg t 0 0 n (by omega)
        rw [← h3] at this
        have e : List.range' 0 n = List.range' (8 * 0 + 0) n := rfl
        rw [e, this, Nat.mod_eq_of_lt (by omega)]
        rfl
  · rw [if_neg (by omega)]
    obtain ⟨g1, g2⟩ := readRest_spec (t := t) (j := k / 8 - 1) n hb hd h3 h4
    rw [show 8 * (k / 8 - 1 + 1) = k by omega] at g1 g2
    exact ⟨g1, g2⟩
  · exact absurd hk h1

theorem readOut_spec {t : Spec.Ascon.S} {d : Digest} {k : Nat} (n : Nat) (h : Reading t k d) :
    Reading t (k + n) (readOut d n).1 ∧ (readOut d n).2 = (List.range' k n).map (byteAt t) := by
  unfold readOut
  by_cases hn : n ≤ 0
  · have : n = 0 := by omega
    subst this
    rw [if_pos hn]
    exact ⟨h, rfl⟩
  · rw [if_neg hn]
    have h' := h
    obtain ⟨hb, hd, hh⟩ := h
    rcases hh with ⟨h1, h2, h3⟩ | ⟨h1, h2, h3, h4⟩ | ⟨h1, h2, h3, h4⟩
    · rw [if_neg (by omega)]
      exact readTail_spec n (by omega) h' (by omega)
    · rw [if_neg (by omega)]
      exact readTail_spec n (by omega) h' (by omega)
    · rw [if_pos (by omega)]
      simp only
      have hout : (d.buf.drop d.len).take (min n (8 - d.len)) = (List.range' k (min n (8 - d.len))).map (byteAt t) := by
        have := seg t (k / 8) (k % 8) (min n (8 - d.len)) (by omega)
        rw [show 8 * (k / 8) + k % 8 = k by omega] at this
        rw [this, h4, h2, ← h3]
        rfl
      by_cases hc : d.len + min n (8 - d.len) < 8 ∨ n = min n (8 - d.len)
      · rw [if_pos hc]
        have hnk : min n (8 - d.len) = n := by omega
        rw [hnk] at hout ⊢
        refine ⟨?_, hout⟩
        by_cases h8 : (k + n) % 8 = 0
        · refine ⟨hb, hd, Or.inr (Or.inl ⟨h8, by omega, ?_, ?_⟩)⟩
          · show d.len + n = 8; omega
          · show toS d.s = _
            rw [h3, show (k + n) / 8 - 1 = k / 8 by omega]
        · refine ⟨hb, hd, Or.inr (Or.inr ⟨h8, ?_, ?_, h4⟩)⟩
          · show d.len + n = _; omega
          · show toS d.s = _
            rw [h3, show (k + n) / 8 = k / 8 by omega]
      · rw [if_neg hc]
        obtain ⟨g1, g2⟩ := readTail_spec (t := t) (d := { d with len := d.len + min n (8 - d.len) }) (k := k + (8 - d.len)) (n - min n (8 - d.len)) (by omega)
          ⟨hb, hd, Or.inr (Or.inl ⟨by omega, by omega, by show d.len + min n (8 - d.len) = 8; omega, by
            show toS d.s = _
            rw [h3, show (k + (8 - d.len)) / 8 - 1 = k / 8 by omega]⟩)⟩ (by omega)
        have hm : min n (8 - d.len) = 8 - d.len := by omega
        rw [show k + (8 - d.len) + (n - min n (8 - d.len)) = k + n by omega] at g1
        refine ⟨g1, ?_⟩
        show _ ++ (readTail _ _).2 = _
        rw [g2, hout]
        conv => rhs; rw [show n = min n (8 - d.len) + (n - min n (8 - d.len)) by omega]
        rw [← List.range'_append_1, List.map_append, hm]

end Verif.Ascon
