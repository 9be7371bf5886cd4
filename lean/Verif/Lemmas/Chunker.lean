import Verif.Model.Chunker
import Verif.Spec.Chunker
import Verif.Lemmas.RabinDigest
namespace Verif.Chunker
open Verif.Rabin (Ok Fp)
open Verif.Spec.Chunker

theorem logBufSize_spec (w : Nat) : ∀ fuel log, w * 2 ≤ 2 ^ (log + fuel) → w * 2 ≤ 2 ^ logBufSize fuel w log := by
  intro fuel
  induction fuel with
  | zero => intro log h; exact h
  | succ n ih =>
    intro log h
    unfold logBufSize
    by_cases hc : 2 ^ log < w * 2
    · rw [if_pos hc]; exact ih _ (by rw [show log + 1 + n = log + (n + 1) by omega]; exact h)
    · rw [if_neg hc]; omega

/-- A reader that never fails, never answers `0, nil` and never returns `io.EOF` with data. -/
structure Good (r : Reader) : Prop where
  eager : r.eager = false
  sched : ∀ a ∈ r.sched, ∃ k, a = .data k ∧ 0 < k

theorem deliver_good {r : Reader} (g : Good r) {k : Nat} (hk : 0 < k) :
    (r.data = [] ∧ r.deliver k = (r, [], some .eof)) ∨
    (∃ x d, x ≠ [] ∧ x.length ≤ k ∧ r.data = x ++ d ∧ r.deliver k = ({ r with data := d }, x, none)) := by
  by_cases h : r.data = []
  · left; exact ⟨h, by unfold Reader.deliver; rw [if_pos h]⟩
  · right
    refine ⟨r.data.take k, r.data.drop k, ?_, ?_, (List.take_append_drop _ _).symm, ?_⟩
    · intro e
      rcases List.take_eq_nil_iff.mp e with e | e
      · omega
      · exact h e
    · rw [List.length_take]; omega
    · unfold Reader.deliver
      rw [if_neg h]
      simp only [g.eager]
      rfl

theorem read_good {r : Reader} (g : Good r) {n : Nat} (hn : 0 < n) :
    (r.data = [] ∧ ∃ s, r.read n = ({ r with sched := s }, [], some .eof)) ∨
    (∃ x d s, x ≠ [] ∧ x.length ≤ n ∧ r.data = x ++ d ∧ Good { r with sched := s, data := d } ∧
      s.length ≤ r.sched.length ∧ r.read n = ({ r with sched := s, data := d }, x, none)) := by
  obtain ⟨data, sched, eager, disc⟩ := r
  cases hs : sched with
  | nil =>
    subst hs
    rcases deliver_good g hn with ⟨h, e⟩ | ⟨x, d, h1, h2, h3, e⟩
    · left; exact ⟨h, [], e⟩
    · right; exact ⟨x, d, [], h1, h2, h3, ⟨g.eager, by simp⟩, Nat.le_refl _, e⟩
  | cons a s =>
    subst hs
    obtain ⟨k, rfl, hk⟩ := g.sched _ List.mem_cons_self
    have g' : Good { data := data, sched := s, eager := eager, disc := disc } :=
      ⟨g.eager, fun a ha => g.sched a (List.mem_cons_of_mem _ ha)⟩
    rcases deliver_good g' (k := min k n) (by omega) with ⟨h, e⟩ | ⟨x, d, h1, h2, h3, e⟩
    · left; exact ⟨h, s, e⟩
    · right; exact ⟨x, d, s, h1, by omega, h3, ⟨g.eager, g'.sched⟩, by simp, e⟩

/-- The ring buffer of `2^k` bytes holds `B` from `head` on. -/
structure Held (buf : Bytes) (head tail k : Nat) (B : Bytes) : Prop where
  len : buf.length = 2 ^ k
  tail : head + B.length = tail
  fits : B.length ≤ 2 ^ k
  get : ∀ i, i < B.length → at8 buf ((head + i) % 2 ^ k) = at8 B i

theorem Held.shift {buf head tail k B} (h : Held buf head tail k B) (j : Nat) (hj : j ≤ B.length) :
    Held buf (head + j) tail k (B.drop j) := by
  refine ⟨h.len, ?_, ?_, ?_⟩
  · rw [List.length_drop]; have := h.tail; omega
  · rw [List.length_drop]; have := h.fits; omega
  · intro i hi
    rw [List.length_drop] at hi
    rw [Nat.add_assoc, h.get (j + i) (by omega)]
    unfold at8
    rw [List.getD_eq_getElem?_getD, List.getD_eq_getElem?_getD, List.getElem?_drop]

theorem at8_goCopy_in {buf x : Bytes} {off i : Nat} (h : off + x.length ≤ buf.length) (hi : i < x.length) :
    at8 (goCopy buf off x) (off + i) = at8 x i := by
  unfold goCopy at8
  rw [List.take_of_length_le (l := x) (by omega), List.append_assoc, List.getD_eq_getElem?_getD, List.getElem?_append_right (by rw [List.length_take]; omega),
    List.length_take, Nat.min_eq_left (by omega), Nat.add_sub_cancel_left, List.getElem?_append_left hi,
    ← List.getD_eq_getElem?_getD]

theorem at8_goCopy_out {buf x : Bytes} {off i : Nat} (h : off + x.length ≤ buf.length)
    (hi : i < off ∨ off + x.length ≤ i) : at8 (goCopy buf off x) i = at8 buf i := by
  unfold goCopy at8
  rw [List.take_of_length_le (l := x) (by omega), List.getD_eq_getElem?_getD, List.getD_eq_getElem?_getD]
  congr 1
  rcases hi with hi | hi
  · rw [List.append_assoc, List.getElem?_append_left (by rw [List.length_take]; omega), List.getElem?_take_of_lt hi]
  · rw [List.getElem?_append_right (by rw [List.length_append, List.length_take]; omega), List.length_append,
      List.length_take, Nat.min_eq_left (by omega), List.getElem?_drop]
    congr 1
    omega

theorem at8_append_lt {a b : Bytes} {i : Nat} (h : i < a.length) : at8 (a ++ b) i = at8 a i := by
  unfold at8
  rw [List.getD_eq_getElem?_getD, List.getD_eq_getElem?_getD, List.getElem?_append_left h]
theorem at8_append_ge {a b : Bytes} {i : Nat} (h : a.length ≤ i) : at8 (a ++ b) i = at8 b (i - a.length) := by
  unfold at8
  rw [List.getD_eq_getElem?_getD, List.getD_eq_getElem?_getD, List.getElem?_append_right h]

theorem goCopy_len {buf x : Bytes} {off : Nat} (h : off + x.length ≤ buf.length) : (goCopy buf off x).length = buf.length := by
  unfold goCopy
  rw [List.take_of_length_le (l := x) (by omega)]
  simp only [List.length_append, List.length_take, List.length_drop]
  omega

theorem mod_lin {L a b : Nat} (hL : 0 < L) : ∃ q, a = L * q + a % L ∧ a % L < L ∧ (a + b) % L = (a % L + b) % L := by
  refine ⟨a / L, (Nat.div_add_mod a L).symm, Nat.mod_lt _ hL, ?_⟩
  simp

/-- Reading `x` at the tail keeps what is held. -/
theorem Held.read {buf head tail k B} (h : Held buf head tail k B) (hB : B.length < 2 ^ k) {x : Bytes}
    (hx : x.length ≤ (if head % 2 ^ k ≤ tail % 2 ^ k then 2 ^ k - tail % 2 ^ k else head % 2 ^ k - tail % 2 ^ k)) :
    Held (goCopy buf (tail % 2 ^ k) x) head (tail + x.length) k (B ++ x) := by
  obtain ⟨h1, h2, h3, h4⟩ := h
  have hL : 0 < 2 ^ k := Nat.two_pow_pos k
  generalize hLe : 2 ^ k = L at *
  have ht : tail % L = (head % L + B.length) % L := by rw [← h2]; simp
  have hh : head % L < L := Nat.mod_lt _ hL
  have ht' : tail % L < L := Nat.mod_lt _ hL
  have ht2 : (head % L + B.length < L ∧ tail % L = head % L + B.length) ∨
      (L ≤ head % L + B.length ∧ tail % L = head % L + B.length - L) := by
    by_cases hc : head % L + B.length < L
    · left; exact ⟨hc, by rw [ht, Nat.mod_eq_of_lt hc]⟩
    · right
      refine ⟨by omega, ?_⟩
      rw [ht, Nat.mod_eq_sub_mod (by omega), Nat.mod_eq_of_lt (by omega)]
  have hspace : tail % L + x.length ≤ L ∧ B.length + x.length ≤ L := by
    split at hx <;> omega
  refine ⟨?_, ?_, ?_, ?_⟩
  · rw [goCopy_len (by omega), hLe]; exact h1
  · rw [List.length_append]; omega
  · rw [List.length_append, hLe]; exact hspace.2
  · intro i hi
    rw [hLe]
    rw [List.length_append] at hi
    have hm : (head + i) % L = (head % L + i) % L := by simp
    have hm2 : (head % L + i < L ∧ (head + i) % L = head % L + i) ∨
        (L ≤ head % L + i ∧ (head + i) % L = head % L + i - L) := by
      by_cases hc : head % L + i < L
      · left; exact ⟨hc, by rw [hm, Nat.mod_eq_of_lt hc]⟩
      · right
        refine ⟨by omega, ?_⟩
        rw [hm, Nat.mod_eq_sub_mod (by omega), Nat.mod_eq_of_lt (by omega)]
    clear hm ht
    have hg : i < B.length → at8 buf ((head + i) % L) = at8 B i := h4 i
    clear h4
    generalize (head + i) % L = hi' at *
    generalize head % L = hh' at *
    generalize tail % L = tt' at *
    by_cases hiB : i < B.length
    · rw [at8_append_lt hiB, ← hg hiB, at8_goCopy_out (by omega)]
      split at hx <;> omega
    · rw [at8_append_ge (by omega)]
      have : hi' = tt' + (i - B.length) := by
        split at hx <;> omega
      rw [this, at8_goCopy_in (by omega) (by omega)]

theorem goCopy_nil' (buf : Bytes) (off : Nat) : goCopy buf off [] = buf := by
  unfold goCopy; simp

/-- `more` with room in the buffer. -/
theorem more_spec {c : Chunker} {k : Nat} {B : Bytes} (h : Held c.buf c.head c.tail k B) (hB : B.length < 2 ^ k)
    (he : c.ioErr = none) (g : Good c.r) :
    (c.r.data = [] ∧ ∃ r', r'.data = [] ∧ more c = ({ c with r := r', ioErr := some .eof }, some .eof)) ∨
    (∃ r' b' x, x ≠ [] ∧ c.r.data = x ++ r'.data ∧ Good r' ∧
      more c = ({ c with r := r', buf := b', tail := c.tail + x.length }, none) ∧
      Held b' c.head (c.tail + x.length) k (B ++ x)) := by
  have hmask : ∀ n, n &&& (c.buf.length - 1) = n % 2 ^ k := by
    intro n; rw [h.len, Nat.and_two_pow_sub_one_eq_mod]
  have hlen : 0 < (if c.head % 2 ^ k ≤ c.tail % 2 ^ k then c.buf.length - c.tail % 2 ^ k else c.head % 2 ^ k - c.tail % 2 ^ k) := by
    have := Nat.mod_lt c.tail (Nat.two_pow_pos k)
    have := h.len
    split <;> omega
  unfold more
  rw [he]
  simp only [hmask]
  rcases read_good g hlen with ⟨h1, s, e⟩ | ⟨x, d, s, h1, h2, h3, h4, h5, e⟩
  · left
    refine ⟨h1, { c.r with sched := s }, h1, ?_⟩
    rw [e]
    simp only [goCopy_nil', List.length_nil, Nat.lt_irrefl, if_false, Option.getD_some]
  · right
    refine ⟨{ c.r with sched := s, data := d }, goCopy c.buf (c.tail % 2 ^ k) x, x, h1, h3, h4, ?_, ?_⟩
    · rw [e]
      simp only
      rw [if_pos (List.length_pos_iff.mpr h1)]
    · exact h.read hB (by have := h2; rw [h.len] at this; exact this)

/-- Everything but the buffer, the positions and the reader. -/
structure Conf (c : Chunker) (P : Params) (w : Int) (k : Nat) : Prop where
  ok : Ok c.tab P.p w
  wpos : 0 < w
  window : P.window = w.toNat
  min : c.minBytes = P.min
  max : c.maxBytes = P.max
  mask : c.hashMask = P.mask
  minw : P.window ≤ P.min
  maxmin : P.min ≤ P.max
  buf : P.window * 2 ≤ 2 ^ k

theorem Conf.upd {c : Chunker} {P w k} (h : Conf c P w k) {c' : Chunker} (h1 : c'.tab = c.tab)
    (h2 : c'.minBytes = c.minBytes) (h3 : c'.maxBytes = c.maxBytes) (h4 : c'.hashMask = c.hashMask) : Conf c' P w k :=
  ⟨h1 ▸ h.ok, h.wpos, h.window, h2 ▸ h.min, h3 ▸ h.max, h4 ▸ h.mask, h.minw, h.maxmin, h.buf⟩

theorem prime_spec (k window : Nat) (hw : window * 2 ≤ 2 ^ k) (hw0 : 0 < window) : ∀ fuel (c : Chunker) (B : Bytes),
    Held c.buf c.head c.tail k B → c.ioErr = none → Good c.r → c.head + window - c.tail ≤ fuel →
    (∃ r' b' t' B', window ≤ B'.length ∧ B ++ c.r.data = B' ++ r'.data ∧ Good r' ∧
      prime fuel c window = ({ c with r := r', buf := b', tail := t' }, none) ∧ Held b' c.head t' k B') ∨
    (∃ r' b' t' , (B ++ c.r.data).length < window ∧ t' = c.head + (B ++ c.r.data).length ∧ r'.data = [] ∧
      prime fuel c window = ({ c with r := r', buf := b', tail := t', ioErr := some .eof }, some .eof)) := by
  intro fuel
  induction fuel with
  | zero =>
    intro c B h he g hf
    have := h.tail
    left; exact ⟨c.r, c.buf, c.tail, B, by omega, rfl, g, rfl, h⟩
  | succ n ih =>
    intro c B h he g hf
    have ht := h.tail
    unfold prime
    by_cases hc : c.tail < c.head + window
    · rw [if_pos hc]
      rcases more_spec h (by omega) he g with ⟨h1, r', h2, e⟩ | ⟨r', b', x, h1, h2, h3, e, h4⟩
      · right
        refine ⟨r', c.buf, c.tail, by rw [h1, List.append_nil]; omega, by rw [h1, List.append_nil]; omega, h2, ?_⟩
        rw [e]
      · rw [e]
        simp only
        have hx := List.length_pos_iff.mpr h1
        rcases ih { c with r := r', buf := b', tail := c.tail + x.length } (B ++ x) h4 he h3 (by simp only; omega) with
          ⟨r2, b2, t2, B2, q1, q2, q3, q4, q5⟩ | ⟨r2, b2, t2, q1, q2, q3, q4⟩
        · left
          refine ⟨r2, b2, t2, B2, q1, ?_, q3, q4, q5⟩
          rw [h2, ← q2, List.append_assoc]
        · right
          refine ⟨r2, b2, t2, ?_, ?_, q3, q4⟩
          · rw [h2, ← List.append_assoc]; exact q1
          · rw [h2, ← List.append_assoc]; exact q2
    · rw [if_neg hc]
      left; exact ⟨c.r, c.buf, c.tail, B, by omega, rfl, g, rfl, h⟩

theorem discardLoop_spec (k : Nat) : ∀ fuel (c : Chunker) (n : Nat),
    c.buf.length = 2 ^ k → c.ioErr = none → Good c.r → n + c.r.sched.length ≤ fuel →
    (n ≤ c.r.data.length ∧ ∃ r' b', r'.data = c.r.data.drop n ∧ Good r' ∧ b'.length = 2 ^ k ∧
      discardLoop fuel c n = ({ c with r := r', buf := b', tail := c.tail + n }, none)) ∨
    (c.r.data.length < n ∧ ∃ r' b', r'.data = [] ∧
      discardLoop fuel c n = ({ c with r := r', buf := b', tail := c.tail + c.r.data.length, ioErr := some .eof }, some .eof)) := by
  intro fuel
  induction fuel with
  | zero =>
    intro c n hb he g hf
    have : n = 0 := by omega
    subst this
    left; exact ⟨Nat.zero_le _, c.r, c.buf, rfl, g, hb, rfl⟩
  | succ f ih =>
    intro c n hb he g hf
    unfold discardLoop
    by_cases hn : 0 < n
    · rw [if_pos hn]
      have hmin : 0 < min c.buf.length n := by have := Nat.two_pow_pos k; omega
      rcases read_good g hmin with ⟨h1, s, e⟩ | ⟨x, d, s, h1, h2, h3, h4, h5, e⟩
      · right
        refine ⟨by rw [h1]; exact hn, { c.r with sched := s }, c.buf, h1, ?_⟩
        rw [e]
        simp only [goCopy_nil', List.length_nil, Nat.add_zero, h1]
      · rw [e]
        simp only
        have hx := List.length_pos_iff.mpr h1
        have hcl : (goCopy c.buf 0 x).length = 2 ^ k := by rw [goCopy_len (by omega), hb]
        rcases ih { c with r := { c.r with sched := s, data := d }, buf := goCopy c.buf 0 x, tail := c.tail + x.length }
            (n - x.length) hcl he h4 (by simp only; omega) with ⟨q1, r2, b2, q2, q3, q4, q5⟩ | ⟨q1, r2, b2, q2, q3⟩
        · left
          simp only at q1 q2 q5
          refine ⟨by rw [h3, List.length_append]; omega, r2, b2, ?_, q3, q4, ?_⟩
          · rw [q2, h3]
            conv => rhs; rw [show n = x.length + (n - x.length) by omega, ← List.drop_drop, List.drop_left]
          · rw [q5]
            rw [show c.tail + x.length + (n - x.length) = c.tail + n by omega]
        · right
          simp only at q1 q2 q3
          refine ⟨by rw [h3, List.length_append]; omega, r2, b2, q2, ?_⟩
          rw [q3, h3, List.length_append]
          rw [Nat.add_assoc]
    · rw [if_neg hn]
      have : n = 0 := by omega
      subst this
      left; exact ⟨Nat.zero_le _, c.r, c.buf, rfl, g, hb, rfl⟩

theorem discard_spec {k : Nat} {c : Chunker} {n : Nat} (hb : c.buf.length = 2 ^ k) (he : c.ioErr = none) (g : Good c.r) :
    (n ≤ c.r.data.length ∧ ∃ r' b', r'.data = c.r.data.drop n ∧ Good r' ∧ b'.length = 2 ^ k ∧
      discard c n = ({ c with r := r', buf := b', tail := c.tail + n }, none)) ∨
    (c.r.data.length < n ∧ ∃ r' b', r'.data = [] ∧
      discard c n = ({ c with r := r', buf := b', tail := c.tail + c.r.data.length, ioErr := some .eof }, some .eof)) := by
  unfold discard
  rw [he]
  simp only
  by_cases hd : c.r.disc = true
  · rw [if_pos hd]
    unfold Reader.discard
    by_cases hn : n ≤ c.r.data.length
    · left
      refine ⟨hn, { c.r with data := c.r.data.drop n }, c.buf, rfl, ⟨g.eager, g.sched⟩, hb, ?_⟩
      simp only [Nat.min_eq_left hn]
      rw [if_neg (by omega)]
    · right
      refine ⟨by omega, { c.r with data := c.r.data.drop n }, c.buf, ?_, ?_⟩
      · exact List.drop_of_length_le (by omega)
      · simp only [Nat.min_eq_right (by omega : c.r.data.length ≤ n)]
        rw [if_pos (by omega)]
  · rw [if_neg hd]
    have := discardLoop_spec k _ c n hb he g (Nat.le_refl _)
    rw [he] at this
    exact this

theorem rollHash_eq {c : Chunker} {k w head : Nat} {t : Nat} {B : Bytes} (h : Held c.buf head t k B) (hB : w < B.length)
    (hash : U64) : rollHash c w head hash =
      Rabin.pushByte c.tab (hash ^^^ c.tab.pop.getD (at8 B 0).toNat 0) (at8 B w) := by
  have hmask : ∀ n, n &&& (c.buf.length - 1) = n % 2 ^ k := by
    intro n; rw [h.len, Nat.and_two_pow_sub_one_eq_mod]
  have h0 := h.get 0 (by omega)
  rw [Nat.add_zero] at h0
  unfold rollHash
  simp only [hmask, h0, h.get w hB]

/-- One rolling step. -/
theorem roll_fp {c : Chunker} {P : Params} {w : Int} {k : Nat} (cf : Conf c P w k) {head t : Nat} {B : Bytes}
    (h : Held c.buf head t k B) (hB : P.window < B.length) {hash : U64} (f : Fp P.p hash (B.take P.window)) :
    Fp P.p (rollHash c P.window head hash) ((B.drop 1).take P.window) := by
  rw [rollHash_eq h hB]
  have hw := cf.window
  have hwp := cf.wpos
  obtain ⟨x, B, rfl⟩ : ∃ x B', B = x :: B' := by
    cases B with
    | nil => simp at hB
    | cons x B => exact ⟨x, B, rfl⟩
  rw [List.length_cons] at hB
  obtain ⟨n, hn⟩ : ∃ n, P.window = n + 1 := ⟨P.window - 1, by omega⟩
  rw [hn] at f hB ⊢
  rw [List.take_succ_cons] at f
  have hx : at8 (x :: B) 0 = x := rfl
  have hp : at8 (x :: B) (n + 1) = B[n]'(by omega) := by
    unfold at8; rw [List.getD_cons_succ, List.getD_eq_getElem?_getD, List.getElem?_eq_getElem (by omega)]; rfl
  rw [hx, hp]
  have f1 := Fp.pop cf.ok hwp (by rw [List.length_take]; omega) f
  have f2 := f1.push cf.ok (B[n]'(by omega))
  rw [List.drop_one, List.tail_cons, List.take_succ_eq_append_getElem (by omega)]
  exact f2

theorem boundary_iff {P : Params} {D B E : Bytes} {off : Nat} {hash : U64} {n : Nat} (hp : 0 < P.p.size)
    (hD : D.drop off = B ++ E) (hB : P.window ≤ B.length) (hn : n = off + P.window) (f : Fp P.p hash (B.take P.window)) :
    Boundary P D n ↔ hash &&& P.mask = P.mask := by
  unfold Boundary
  rw [hn, Nat.add_sub_cancel, hD, List.take_append_of_le_length hB, ← Rabin.fingerprint_eq hp f.lt f.cg]

/-- The chunk of length `n` ends for a reason other than the end of the data. -/
def Full (P : Params) (D : Bytes) (n : Nat) : Prop := P.min ≤ n ∧ (n = P.max ∨ Boundary P D n)

/-- What `scan` returns: the cut of `D`. -/
theorem scan_spec (P : Params) (w : Int) (k start : Nat) (D : Bytes) :
    ∀ fuel (c : Chunker) (head : Nat) (hash : U64) (B : Bytes) (off : Nat),
    Conf c P w k → Held c.buf head c.tail k B → c.ioErr = none → Good c.r →
    head = start + off → D.drop off = B ++ c.r.data → off ≤ D.length → P.window ≤ B.length → Fp P.p hash (B.take P.window) →
    P.min ≤ off + P.window → off + P.window ≤ P.max →
    (∀ j, P.min ≤ j → j < off + P.window → j ≠ P.max ∧ ¬ Boundary P D j) →
    start + P.max - P.window - head ≤ fuel →
    ∃ c' off' B', Conf c' P w k ∧ scan fuel c P.window head hash (c.tail - P.window) (start + P.max - P.window) = (c', start + off', none) ∧
      IsCut P D (off' + P.window) ∧ D.drop off' = B' ++ c'.r.data ∧ P.window ≤ B'.length ∧ Held c'.buf (start + off') c'.tail k B' ∧
      ((c'.ioErr = none ∧ Good c'.r ∧ Full P D (off' + P.window)) ∨ (c'.ioErr = some .eof ∧ off' + P.window = D.length ∧ ¬ Full P D (off' + P.window))) := by
  intro fuel
  induction fuel with
  | zero =>
    intro c head hash B off cf hH he g hhead hD hoff hB f hmin hmax hno hf
    refine ⟨c, off, B, cf, by rw [hhead]; rfl, ⟨?_, ?_, hno⟩, hD, hB, by rw [← hhead]; exact hH, Or.inl ⟨he, g, hmin, Or.inl (by omega)⟩⟩
    · have := congrArg List.length hD
      rw [List.length_drop, List.length_append] at this
      omega
    · right; exact ⟨hmin, Or.inl (by omega)⟩
  | succ n ih =>
    intro c head hash B off cf hH he g hhead hD hoff hB f hmin hmax hno hf
    have hp : 0 < P.p.size := by have := cf.ok.lo; omega
    have hlen := congrArg List.length hD
    rw [List.length_drop, List.length_append] at hlen
    have hbd := boundary_iff hp hD hB rfl f
    unfold scan
    by_cases hc : hash &&& c.hashMask ≠ c.hashMask ∧ head < start + P.max - P.window
    · rw [if_pos hc]
      rw [cf.mask] at hc
      have hno' : ∀ j, P.min ≤ j → j < off + 1 + P.window → j ≠ P.max ∧ ¬ Boundary P D j := by
        intro j h1 h2
        by_cases h3 : j < off + P.window
        · exact hno j h1 h3
        · have : j = off + P.window := by omega
          subst this
          exact ⟨by omega, fun hb => hc.1 (hbd.mp hb)⟩
      by_cases hr : head = c.tail - P.window
      · rw [if_pos hr]
        have hBw : B.length = P.window := by have := hH.tail; omega
        have hbuf := cf.buf
        rcases more_spec (c := { c with head := head }) hH (by have := cf.wpos; have := cf.window; omega) he g with
          ⟨h1, r', h2, e⟩ | ⟨r', b', x, h1, h2, h3, e, h4⟩
        · rw [e]
          simp only at h1
          refine ⟨_, off, B, cf.upd (c' := { c with head := head, r := r', ioErr := some .eof }) rfl rfl rfl rfl, by rw [hhead], ⟨?_, ?_, hno⟩, ?_, hB, ?_, Or.inr ⟨rfl, ?_⟩⟩
          · omega
          · left; rw [h1] at hlen; simp only [List.length_nil] at hlen; omega
          · simp only; rw [h2, hD, h1]
          · rw [← hhead]; exact hH
          · refine ⟨by rw [h1] at hlen; simp only [List.length_nil] at hlen; omega, ?_⟩
            rintro ⟨_, hq | hq⟩
            · omega
            · exact hc.1 (hbd.mp hq)
        · rw [e]
          simp only at h2 h4 ⊢
          have hx := List.length_pos_iff.mpr h1
          have cf' := cf.upd (c' := { c with head := head, r := r', buf := b', tail := c.tail + x.length }) rfl rfl rfl rfl
          have f' := roll_fp cf' (hash := hash) h4 (by rw [List.length_append]; omega)
            (by rw [List.take_append_of_le_length hB]; exact f)
          obtain ⟨c2, o2, B2, q⟩ := ih _ (head + 1) _ ((B ++ x).drop 1) (off + 1) cf' (h4.shift 1 (by rw [List.length_append]; omega)) he h3
            (by omega) (by
              rw [← List.drop_drop, hD, h2, ← List.append_assoc, List.drop_append_of_le_length (by rw [List.length_append]; omega)])
            (by rw [h2, List.length_append] at hlen; omega)
            (by rw [List.length_drop, List.length_append]; omega) f' (by omega) (by omega) hno' (by omega)
          exact ⟨c2, o2, B2, q⟩
      · rw [if_neg hr]
        have hBw : P.window < B.length := by have := hH.tail; omega
        have f' := roll_fp cf hH hBw f
        exact ih c (head + 1) _ (B.drop 1) (off + 1) cf (hH.shift 1 (by omega)) he g
          (by omega) (by rw [← List.drop_drop, hD, List.drop_append_of_le_length (by omega)])
          (by omega) (by rw [List.length_drop]; omega) f' (by omega) (by omega) hno' (by omega)
    · rw [if_neg hc]
      rw [cf.mask] at hc
      have hfull : Full P D (off + P.window) := by
        refine ⟨hmin, ?_⟩
        by_cases hm : hash &&& P.mask = P.mask
        · right; exact hbd.mpr hm
        · left
          have : ¬ head < start + P.max - P.window := fun h => hc ⟨hm, h⟩
          omega
      exact ⟨c, off, B, cf, by rw [hhead], ⟨by omega, Or.inr hfull, hno⟩, hD, hB, by rw [← hhead]; exact hH, Or.inl ⟨he, g, hfull⟩⟩

/-- The two slices of the ring make up the window. -/
theorem window_bytes {buf : Bytes} {head tail k w : Nat} {B : Bytes} (h : Held buf head tail k B) (hB : w ≤ B.length) :
    (if w ≤ (buf.drop (head &&& (buf.length - 1))).length
      then ((buf.drop (head &&& (buf.length - 1))).take w, ([] : Bytes))
      else (buf.drop (head &&& (buf.length - 1)), buf.take (w - (buf.drop (head &&& (buf.length - 1))).length))).1 ++
    (if w ≤ (buf.drop (head &&& (buf.length - 1))).length
      then ((buf.drop (head &&& (buf.length - 1))).take w, ([] : Bytes))
      else (buf.drop (head &&& (buf.length - 1)), buf.take (w - (buf.drop (head &&& (buf.length - 1))).length))).2 = B.take w := by
  have hL : 0 < 2 ^ k := Nat.two_pow_pos k
  rw [show head &&& (buf.length - 1) = head % 2 ^ k by rw [h.len, Nat.and_two_pow_sub_one_eq_mod]]
  obtain ⟨h1, h2, h3, h4⟩ := h
  generalize 2 ^ k = L at *
  have hh : head % L < L := Nat.mod_lt _ hL
  have hidx : ∀ i, i < w → (head % L + i < L ∧ (head + i) % L = head % L + i) ∨
      (L ≤ head % L + i ∧ (head + i) % L = head % L + i - L) := by
    intro i hi
    have hm : (head + i) % L = (head % L + i) % L := by simp
    by_cases hc : head % L + i < L
    · left; exact ⟨hc, by rw [hm, Nat.mod_eq_of_lt hc]⟩
    · right
      refine ⟨by omega, ?_⟩
      rw [hm, Nat.mod_eq_sub_mod (by omega), Nat.mod_eq_of_lt (by omega)]
  generalize head % L = hd at *
  have hat : ∀ i, i < w → ∀ j, j < buf.length → (head + i) % L = j → buf[j]? = B[i]? := by
    intro i hi j hj e
    have := h4 i (by omega)
    rw [e] at this
    unfold at8 at this
    rw [List.getD_eq_getElem?_getD, List.getD_eq_getElem?_getD, List.getElem?_eq_getElem hj,
      List.getElem?_eq_getElem (by omega : i < B.length)] at this
    rw [List.getElem?_eq_getElem hj, List.getElem?_eq_getElem (by omega : i < B.length)]
    simpa using this
  rw [List.length_drop]
  by_cases hc : w ≤ buf.length - hd
  · rw [if_pos hc]
    simp only [List.append_nil]
    apply List.ext_getElem?
    intro i
    by_cases hi : i < w
    · rw [List.getElem?_take_of_lt hi, List.getElem?_take_of_lt hi, List.getElem?_drop]
      rcases hidx i hi with ⟨a, b⟩ | ⟨a, b⟩
      · exact hat i hi _ (by omega) b
      · omega
    · rw [List.getElem?_eq_none (by rw [List.length_take]; omega), List.getElem?_eq_none (by rw [List.length_take]; omega)]
  · rw [if_neg hc]
    simp only
    apply List.ext_getElem?
    intro i
    by_cases hi : i < w
    · rw [List.getElem?_take_of_lt hi]
      rcases hidx i hi with ⟨a, b⟩ | ⟨a, b⟩
      · rw [List.getElem?_append_left (by rw [List.length_drop]; omega), List.getElem?_drop]
        exact hat i hi _ (by omega) b
      · rw [List.getElem?_append_right (by rw [List.length_drop]; omega), List.length_drop, List.getElem?_take_of_lt (by omega)]
        exact hat i hi _ (by omega) (by omega)
    · rw [List.getElem?_eq_none (by rw [List.length_append, List.length_take, List.length_drop]; omega),
        List.getElem?_eq_none (by rw [List.length_take]; omega)]

/-- Between two calls: `D` has not been returned yet. -/
structure Inv (c : Chunker) (P : Params) (w : Int) (k : Nat) (D : Bytes) : Prop where
  cf : Conf c P w k
  err : c.ioErr = none
  good : Good c.r
  held : ∃ B, Held c.buf c.head c.tail k B ∧ D = B ++ c.r.data

theorem update_append (tab : Rabin.Table) (h : U64) (a b : Bytes) :
    Rabin.update tab (Rabin.update tab h a) b = Rabin.update tab h (a ++ b) := by
  unfold Rabin.update; rw [List.foldl_append]

/-- The last part of `Next`. -/
theorem next_tail {c : Chunker} {P : Params} {w : Int} {k start : Nat} {D B : Bytes} (cf : Conf c P w k)
    (hH : Held c.buf c.head c.tail k B) (he : c.ioErr = none) (g : Good c.r) (hhead : c.head = start + (P.min - P.window))
    (hD : D.drop (P.min - P.window) = B ++ c.r.data) (hlen : P.min - P.window ≤ D.length) (hB : P.window ≤ B.length) (hash : U64)
    (f : Fp P.p hash (B.take P.window)) :
    ∃ c' n, (match scan (start + P.max - P.window - c.head) c P.window c.head hash (c.tail - P.window) (start + P.max - P.window) with
        | (c, _, some e) => (c, 0, some e)
        | (c, head, none) => ({ c with head := head + P.window }, head + P.window - start, none)) = (c', n, none) ∧
      IsCut P D n ∧ ((Full P D n ∧ Inv c' P w k (D.drop n)) ∨ (¬ Full P D n ∧ c'.ioErr = some .eof ∧ D.drop n = [])) := by
  have hminw := cf.minw
  have hmaxmin := cf.maxmin
  obtain ⟨c', o, B', cf', e, cut, hD', hB', hH', hor⟩ := scan_spec P w k start D _ c c.head hash B (P.min - P.window) cf hH he g
    hhead hD hlen hB f (by omega) (by omega) (fun j h1 h2 => by omega) (Nat.le_refl _)
  rw [e]
  refine ⟨{ c' with head := start + o + P.window }, o + P.window, ?_, cut, ?_⟩
  · simp only
    rw [show start + o + P.window - start = o + P.window by omega]
  · rcases hor with ⟨h1, h2, h3⟩ | ⟨h1, h2, h3⟩
    · left
      refine ⟨h3, cf'.upd rfl rfl rfl rfl, h1, h2, B'.drop P.window, hH'.shift P.window hB', ?_⟩
      rw [← List.drop_drop, hD', List.drop_append_of_le_length hB']
    · right
      exact ⟨h3, h1, List.drop_of_length_le (by omega)⟩

theorem next_eq (c : Chunker) (he : c.ioErr = none) : next c =
    (match (if c.head + (c.minBytes - c.tab.window.toNat) > c.tail
        then discard { c with head := c.head + (c.minBytes - c.tab.window.toNat) } (c.head + (c.minBytes - c.tab.window.toNat) - c.tail)
        else ({ c with head := c.head + (c.minBytes - c.tab.window.toNat) }, none)) with
     | (c2, some e) => if e = .eof then (c2, c2.tail - c.head, none) else (c2, 0, some e)
     | (c2, none) => nextBody c2 c.head c.tab.window.toNat) := by
  obtain ⟨_, _, _, _, _, _, _, _, _⟩ := c
  simp only at he
  subst he
  rfl

theorem nextBody_spec {c : Chunker} {P : Params} {w : Int} {k start : Nat} {D B : Bytes} (cf : Conf c P w k)
    (hH : Held c.buf c.head c.tail k B) (he : c.ioErr = none) (g : Good c.r) (hhead : c.head = start + (P.min - P.window))
    (hD : D.drop (P.min - P.window) = B ++ c.r.data) (hlen : P.min - P.window ≤ D.length) :
    (D ≠ [] ∧ ∃ c' n, nextBody c start P.window = (c', n, none) ∧
      IsCut P D n ∧ ((Full P D n ∧ Inv c' P w k (D.drop n)) ∨ (¬ Full P D n ∧ c'.ioErr = some .eof ∧ D.drop n = []))) ∨
    (D = [] ∧ P.min = P.window ∧ ∃ c', nextBody c start P.window = (c', 0, some .eof) ∧ c'.ioErr = some .eof) := by
  have hminw := cf.minw
  have hw0 : 0 < P.window := by have := cf.wpos; have := cf.window; omega
  have hl := congrArg List.length hD
  rw [List.length_drop] at hl
  unfold nextBody
  rcases prime_spec k P.window cf.buf hw0 _ c B hH he g (Nat.le_refl _) with
    ⟨r', b', t', B', h1, h2, h3, e, h4⟩ | ⟨r', b', t', h1, h2, h3, e⟩
  · left
    have hlb : (B ++ c.r.data).length = B'.length + r'.data.length := by rw [h2, List.length_append]
    refine ⟨by rintro rfl; simp only [List.length_nil] at hl; omega, ?_⟩
    rw [e]
    have cf' := cf.upd (c' := { c with r := r', buf := b', tail := t' }) rfl rfl rfl rfl
    have hwin := window_bytes h4 h1
    have f : Fp P.p (Rabin.update c.tab 0#64 (B'.take P.window)) (B'.take P.window) := by
      have := (Fp.nil P.p).update cf.ok (B'.take P.window)
      rw [List.nil_append] at this
      exact this
    have := next_tail (start := start) (D := D) cf' h4 he h3 hhead (by rw [hD]; exact h2) hlen h1 _ f
    rw [← cf'.max, ← hwin, ← update_append] at this
    exact this
  · rw [e]
    simp only
    by_cases hz : D = []
    · right
      subst hz
      simp only [List.length_nil] at hl hlen
      refine ⟨rfl, by omega, { c with r := r', buf := b', tail := t', ioErr := some .eof }, ?_, rfl⟩
      rw [if_neg (fun h => h.2 (by omega))]
    · left
      have hpos := List.length_pos_iff.mpr hz
      refine ⟨hz, { c with r := r', buf := b', tail := t', ioErr := some .eof }, D.length, ?_, ?_, ?_⟩
      · rw [if_pos ⟨trivial, by omega⟩]
        rw [show t' - start = D.length by omega]
      · exact ⟨Nat.le_refl _, Or.inl rfl, fun j h3 h4 => by omega⟩
      · right; exact ⟨fun hq => by have := hq.1; omega, rfl, List.drop_length⟩

theorem next_spec {c : Chunker} {P : Params} {w : Int} {k : Nat} {D : Bytes} (h : Inv c P w k D) :
    (D ≠ [] ∧ ∃ c' n, next c = (c', n, none) ∧
      IsCut P D n ∧ ((Full P D n ∧ Inv c' P w k (D.drop n)) ∨ (¬ Full P D n ∧ c'.ioErr = some .eof ∧ D.drop n = []))) ∨
    (D = [] ∧ P.min = P.window ∧ ∃ c', next c = (c', 0, some .eof) ∧ c'.ioErr = some .eof) ∨
    (D = [] ∧ P.window < P.min ∧ ∃ c', next c = (c', 0, none) ∧ c'.ioErr = some .eof) := by
  obtain ⟨cf, he, g, B, hH, hD⟩ := h
  have hwin : c.tab.window.toNat = P.window := by rw [cf.ok.window, cf.window]
  have hminw := cf.minw
  have ht := hH.tail
  have hl : D.length = B.length + c.r.data.length := by rw [hD, List.length_append]
  rw [next_eq c he]
  simp only [hwin, cf.min]
  by_cases hc : c.head + (P.min - P.window) > c.tail
  · rw [if_pos hc]
    rcases discard_spec (k := k) (c := { c with head := c.head + (P.min - P.window), minBytes := P.min })
        (n := c.head + (P.min - P.window) - c.tail) hH.len he g with ⟨h1, r', b', h2, h3, h4, e⟩ | ⟨h1, r', b', h2, e⟩
    · rw [e]
      simp only at h1 h2 ⊢
      have hd : D.drop (P.min - P.window) = [] ++ r'.data := by
        rw [List.nil_append, h2, hD, show P.min - P.window = B.length + (c.head + (P.min - P.window) - c.tail) by omega,
          ← List.drop_drop, List.drop_left]
        congr 1
        omega
      have hh : Held b' (c.head + (P.min - P.window)) (c.tail + (c.head + (P.min - P.window) - c.tail)) k [] :=
        ⟨h4, by simp only [List.length_nil]; omega, by simp, fun i hi => by simp at hi⟩
      have := nextBody_spec (start := c.head) (D := D) (cf.upd (c' := Chunker.mk c.tab r' b' (c.head + (P.min - P.window))
          (c.tail + (c.head + (P.min - P.window) - c.tail)) P.min c.maxBytes c.hashMask c.ioErr) rfl cf.min.symm rfl rfl)
        hh he h3 rfl hd (by omega)
      rcases this with h | h
      · exact Or.inl h
      · exact Or.inr (Or.inl h)
    · rw [e]
      simp only at h1 ⊢
      have hn : c.tail + c.r.data.length - c.head = D.length := by omega
      by_cases hz : D = []
      · right; right
        rw [if_pos trivial]
        refine ⟨hz, ?_, _, by rw [hn, hz]; rfl, rfl⟩
        rw [hz] at hl
        simp only [List.length_nil] at hl
        omega
      · left
        rw [if_pos trivial]
        refine ⟨hz, _, D.length, by rw [hn], ⟨Nat.le_refl _, Or.inl rfl, fun j h3 h4 => by omega⟩, Or.inr ⟨fun hq => by have := hq.1; omega, rfl, List.drop_length⟩⟩
  · rw [if_neg hc]
    simp only
    have := nextBody_spec (start := c.head) (D := D) (B := B.drop (P.min - P.window))
      (cf.upd (c' := { c with head := c.head + (P.min - P.window), minBytes := P.min }) rfl cf.min.symm rfl rfl)
      (hH.shift _ (by omega)) he g rfl (by rw [hD, List.drop_append_of_le_length (by omega)]) (by omega)
    rcases this with h | h
    · exact Or.inl h
    · exact Or.inr (Or.inl h)

/-- After `io.EOF` has been seen. -/
theorem nexts_eof {c : Chunker} (h : c.ioErr = some .eof) : ∀ j, nexts c j = List.replicate j (0, some .eof) := by
  intro j
  induction j with
  | zero => rfl
  | succ j ih =>
    unfold nexts
    have : next c = (c, 0, some .eof) := by unfold next; rw [h]
    rw [this]
    simp only
    rw [ih]; rfl

end Verif.Chunker
