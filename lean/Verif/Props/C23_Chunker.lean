import Verif.Lemmas.Chunker
/-
C23: rabin.NewChunker / Next.
-/
namespace Verif.Props
open Verif.Chunker Verif.Spec.Chunker

/-- The documented meaning of the arguments of `NewTable` and `NewChunker`. -/
def chunkParams (polynomial : U64) (w min : Int) (avg : U64) (max : Int) : Params :=
  { p := polynomial.toNat, window := w.toNat, min := min.toNat, max := max.toNat, mask := avg - 1 }

/-- A reader that serves its data in arbitrary pieces, without failing, without answering `0, nil`,
and that reports `io.EOF` with a call of its own. -/
def PlainReader (r : Reader) : Prop := r.eager = false ∧ ∀ a ∈ r.sched, ∃ k, a = Ans.data k ∧ 0 < k

theorem chunker_init {polynomial : U64} {w min : Int} {avg : U64} {max : Int} {tab : Rabin.Table} {r : Reader} {c : Chunker}
    (ht : Rabin.newTable polynomial w = some tab) (hc : newChunker tab r min avg max = some c) (hr : PlainReader r) :
    Inv c (chunkParams polynomial w min avg max) w (logBufSize w.toNat w.toNat 10) r.data := by
  have ok := Rabin.newTable_ok ht
  unfold newChunker at hc
  rw [ok.window] at hc
  by_cases h1 : w ≤ 0
  · rw [if_pos h1] at hc; exact absurd hc (Option.some_ne_none c).symm
  rw [if_neg h1] at hc
  by_cases h2 : w > min
  · rw [if_pos h2] at hc; exact absurd hc (Option.some_ne_none c).symm
  rw [if_neg h2] at hc
  by_cases h3 : max < min
  · rw [if_pos h3] at hc; exact absurd hc (Option.some_ne_none c).symm
  rw [if_neg h3] at hc
  by_cases h4 : avg &&& (avg - 1) ≠ 0
  · rw [if_pos h4] at hc; exact absurd hc (Option.some_ne_none c).symm
  rw [if_neg h4] at hc
  have hc := Option.some.inj hc
  subst hc
  have hbuf : w.toNat * 2 ≤ 2 ^ logBufSize w.toNat w.toNat 10 := by
    apply logBufSize_spec
    have : w.toNat < 2 ^ w.toNat := Nat.lt_two_pow_self
    rw [Nat.pow_add]
    have h10 : (2:Nat) ^ 10 = 1024 := rfl
    omega
  refine ⟨⟨ok, by omega, rfl, rfl, rfl, rfl, ?_, ?_, hbuf⟩, rfl, ⟨hr.1, hr.2⟩, [], ⟨?_, rfl, Nat.zero_le _, ?_⟩, rfl⟩
  · show w.toNat ≤ min.toNat; omega
  · show min.toNat ≤ max.toNat; omega
  · exact zeros_length _
  · intro i hi; simp at hi

/-- The chunk lengths really partition the data: they add up to its length, none is above the
maximum or zero, and none but the last is below the minimum. -/
theorem C23_chunks_partition {P : Params} (hw : 0 < P.min) (hm : P.min ≤ P.max) {D : Bytes} {l : List Nat} (h : Chunks P D l) :
    l.sum = D.length ∧ (∀ n ∈ l, 0 < n ∧ n ≤ P.max) ∧ (∀ n ∈ l.dropLast, P.min ≤ n) := by
  induction h with
  | nil => simp
  | @cons D n l hD hc hl ih =>
    obtain ⟨i1, i2, i3⟩ := ih
    have hle := hc.le
    have hmax : n ≤ P.max := by
      by_cases h : n ≤ P.max
      · exact h
      · exact absurd rfl (hc.first P.max hm (by omega)).1
    have hpos : 0 < n := by
      rcases hc.stop with h | h
      · have := List.length_pos_iff.mpr hD; omega
      · omega
    refine ⟨?_, ?_, ?_⟩
    · rw [List.sum_cons, i1, List.length_drop]; omega
    · intro x hx
      rcases List.mem_cons.mp hx with rfl | hx
      · exact ⟨hpos, hmax⟩
      · exact i2 x hx
    · intro x hx
      cases l with
      | nil => simp at hx
      | cons y l =>
        rw [List.dropLast_cons_cons] at hx
        rcases List.mem_cons.mp hx with rfl | hx
        · rcases hc.stop with h | h
          · exfalso
            generalize hE : D.drop x = E at hl
            have hE' : E = [] := by rw [← hE]; exact List.drop_of_length_le (by omega)
            cases hl with
            | cons hne _ _ => exact hne hE'
          · exact h.1
        · exact i3 x hx

/-- A cut is unique: the partition is a function of the data. -/
theorem C23_cut_unique {P : Params} {D : Bytes} {a b : Nat} (ha : IsCut P D a) (hb : IsCut P D b) : a = b := by
  have key : ∀ {a b : Nat}, IsCut P D a → IsCut P D b → a < b → False := by
    intro a b ha hb hlt
    rcases ha.stop with h | ⟨h1, h2⟩
    · have := hb.le; omega
    · obtain ⟨h3, h4⟩ := hb.first a h1 hlt
      rcases h2 with h2 | h2
      · exact h3 h2
      · exact h4 h2
  rcases Nat.lt_trichotomy a b with h | h | h
  · exact (key ha hb h).elim
  · exact h
  · exact (key hb ha h).elim

theorem nexts_inv {P : Params} {w : Int} {k : Nat} : ∀ (N : Nat) (D : Bytes) (c : Chunker), D.length ≤ N → Inv c P w k D →
    ∃ l ph, Chunks P D l ∧ (ph = [] ∨ (ph = [((0 : Nat), (none : Option Err))] ∧ P.window < P.min)) ∧
      ∀ j, nexts c j = (l.map (fun n => (n, (none : Option Err))) ++ ph ++ List.replicate j (0, some Err.eof)).take j := by
  intro N
  induction N with
  | zero =>
    intro D c hN hI
    have hD : D = [] := List.length_eq_zero_iff.mp (by omega)
    rcases next_spec hI with ⟨h, _⟩ | ⟨_, _, c', e, he⟩ | ⟨_, hw, c', e, he⟩
    · exact absurd hD h
    · refine ⟨[], [], hD ▸ Chunks.nil, Or.inl rfl, ?_⟩
      intro j
      cases j with
      | zero => rfl
      | succ j =>
        unfold nexts; rw [e]; simp only; rw [nexts_eof he]
        simp [List.replicate_succ]
    · refine ⟨[], [(0, none)], hD ▸ Chunks.nil, Or.inr ⟨rfl, hw⟩, ?_⟩
      intro j
      cases j with
      | zero => rfl
      | succ j =>
        unfold nexts; rw [e]; simp only; rw [nexts_eof he]
        simp [List.take_replicate]
  | succ N ih =>
    intro D c hN hI
    rcases next_spec hI with ⟨hD, c', n, e, cut, hor⟩ | ⟨hD, _⟩ | ⟨hD, _⟩
    · have hw0 : 0 < P.min := by have := hI.cf.minw; have := hI.cf.window; have := hI.cf.wpos; omega
      have hpos : 0 < n := by
        rcases cut.stop with h | h
        · have := List.length_pos_iff.mpr hD; omega
        · omega
      rcases hor with ⟨_, hI'⟩ | ⟨_, he, hd⟩
      · obtain ⟨l, ph, h1, h2, h3⟩ := ih (D.drop n) c' (by rw [List.length_drop]; have := List.length_pos_iff.mpr hD; omega) hI'
        refine ⟨n :: l, ph, Chunks.cons hD cut h1, h2, ?_⟩
        intro j
        cases j with
        | zero => rfl
        | succ j =>
          unfold nexts; rw [e]; simp only; rw [h3]
          simp only [List.map_cons, List.cons_append, List.take_succ_cons, List.cons.injEq, true_and]
          rw [List.replicate_succ', ← List.append_assoc, List.take_append_of_le_length (l₁ := _ ++ List.replicate j _)]
          rw [List.length_append, List.length_replicate]; omega
      · refine ⟨[n], [], Chunks.cons hD cut (by rw [hd]; exact Chunks.nil), Or.inl rfl, ?_⟩
        intro j
        cases j with
        | zero => rfl
        | succ j =>
          unfold nexts; rw [e]; simp only; rw [nexts_eof he]
          simp [List.take_replicate]
    · exact ih D c (by rw [hD]; simp) hI
    · exact ih D c (by rw [hD]; simp) hI

/-- Every accepted setting, every plain reader, any number of calls of `Next`: the lengths of the
chunks of the data, possibly one spurious `0, nil`, then `0, io.EOF` for ever.  Missing from the
full property: the spurious answer, and readers that return `io.EOF` together with data (see the
`_violated` theorems). -/
theorem C23_chunker_partial (polynomial : U64) (w min : Int) (avg : U64) (max : Int) (tab : Rabin.Table) (r : Reader) (c : Chunker)
    (ht : Rabin.newTable polynomial w = some tab) (hc : newChunker tab r min avg max = some c) (hr : PlainReader r) :
    ∃ l ph, Chunks (chunkParams polynomial w min avg max) r.data l ∧
      (ph = [] ∨ (ph = [((0 : Nat), (none : Option Err))] ∧ w.toNat < min.toNat)) ∧
      ∀ j, nexts c j = (l.map (fun n => (n, (none : Option Err))) ++ ph ++ List.replicate j (0, some Err.eof)).take j :=
  nexts_inv r.data.length r.data c (Nat.le_refl _) (chunker_init ht hc hr)

/-- When the minimum equals the window the property holds as stated (plain readers). -/
theorem C23_chunker_min_eq_window (polynomial : U64) (w : Int) (avg : U64) (max : Int) (tab : Rabin.Table) (r : Reader) (c : Chunker)
    (ht : Rabin.newTable polynomial w = some tab) (hc : newChunker tab r w avg max = some c) (hr : PlainReader r) :
    ∃ l, Chunks (chunkParams polynomial w w avg max) r.data l ∧
      ∀ j, nexts c j = (l.map (fun n => (n, (none : Option Err))) ++ List.replicate j (0, some Err.eof)).take j := by
  obtain ⟨l, ph, h1, h2, h3⟩ := C23_chunker_partial polynomial w w avg max tab r c ht hc hr
  rcases h2 with rfl | ⟨_, h⟩
  · exact ⟨l, h1, fun j => by rw [h3 j, List.append_nil]⟩
  · omega

theorem nexts_indep {P : Params} {w : Int} {k : Nat} : ∀ (j : Nat) (D : Bytes) (c c' : Chunker), Inv c P w k D → Inv c' P w k D →
    nexts c j = nexts c' j := by
  intro j
  induction j with
  | zero => intros; rfl
  | succ j ih =>
    intro D c c' h h'
    unfold nexts
    rcases next_spec h with ⟨hD, d, n, e, cut, hor⟩ | ⟨hD, hm, d, e, he⟩ | ⟨hD, hm, d, e, he⟩ <;>
    rcases next_spec h' with ⟨hD', d', n', e', cut', hor'⟩ | ⟨hD', hm', d', e', he'⟩ | ⟨hD', hm', d', e', he'⟩
    · rw [e, e']
      simp only
      have := C23_cut_unique cut cut'
      subst this
      rcases hor with ⟨hf, hI⟩ | ⟨hf, he, _⟩ <;> rcases hor' with ⟨hf', hI'⟩ | ⟨hf', he', _⟩
      · rw [ih _ _ _ hI hI']
      · exact absurd hf hf'
      · exact absurd hf' hf
      · rw [nexts_eof he, nexts_eof he']
    all_goals first
      | exact absurd hD' hD
      | exact absurd hD hD'
      | omega
      | rw [e, e']; simp only; rw [nexts_eof he, nexts_eof he']

/-- The answers do not depend on how the reader divides the data, nor on whether it is a `Discarder`. -/
theorem C23_reader_independent (polynomial : U64) (w min : Int) (avg : U64) (max : Int) (tab : Rabin.Table) (r r' : Reader)
    (c c' : Chunker) (ht : Rabin.newTable polynomial w = some tab) (hc : newChunker tab r min avg max = some c)
    (hc' : newChunker tab r' min avg max = some c') (hr : PlainReader r) (hr' : PlainReader r') (hd : r.data = r'.data) (j : Nat) :
    nexts c j = nexts c' j := by
  have h := chunker_init ht hc hr
  have h' := chunker_init ht hc' hr'
  rw [hd] at h
  exact nexts_indep j _ c c' h h'

/-- The spurious chunk: on an empty stream, whenever the minimum exceeds the window, the first `Next`
answers `0, nil` instead of `0, io.EOF`. -/
theorem C23_phantom (polynomial : U64) (w min : Int) (avg : U64) (max : Int) (tab : Rabin.Table) (r : Reader) (c : Chunker)
    (ht : Rabin.newTable polynomial w = some tab) (hc : newChunker tab r min avg max = some c) (hr : PlainReader r)
    (hd : r.data = []) (hm : w.toNat < min.toNat) : (next c).2 = (0, none) := by
  have hI := chunker_init ht hc hr
  rcases next_spec hI with ⟨hD, _⟩ | ⟨_, hm', _⟩ | ⟨_, _, c', e, _⟩
  · exact absurd hd hD
  · have : min.toNat = w.toNat := hm'
    omega
  · rw [e]

/-- A table and a chunker for the examples: polynomial `0x11d`, window 1, maximum 2. -/
def demo (data : Bytes) (eager : Bool) (min : Int) (sched : List Ans := []) : Option Chunker :=
  (Rabin.newTable 0x11d#64 1).bind fun t =>
    newChunker t { data := data, sched := sched, eager := eager, disc := false } min 0#64 2

/-- `Next` returns `0, nil` where the documentation promises `0, io.EOF`: a two-byte stream with
minimum and maximum 2. -/
theorem C23_phantom_violated : (demo [7#8, 7#8] false 2).map (nexts · 3) = some [(2, none), (0, none), (0, some .eof)] := by
  decide +kernel

/-- Bytes are lost with a reader that returns `io.EOF` together with the last bytes: of three bytes
only two are ever returned. -/
theorem C23_eager_violated : (demo [7#8, 7#8, 7#8] true 1).map (nexts · 3) = some [(2, none), (0, some .eof), (0, some .eof)] := by
  decide +kernel

/-! Non-vacuity: the same stream with plain readers (tests). -/
example : (demo [7#8, 7#8, 7#8] false 1).map (nexts · 4) = some [(2, none), (1, none), (0, some .eof), (0, some .eof)] := by
  decide +kernel
example : (demo [7#8, 7#8, 7#8] false 1 [.data 1, .data 1]).map (nexts · 4) =
    some [(2, none), (1, none), (0, some .eof), (0, some .eof)] := by
  decide +kernel
example : PlainReader { data := [1, 2, 3], sched := [.data 1, .data 5], eager := false, disc := true } := by
  refine ⟨rfl, ?_⟩
  intro a ha
  simp at ha
  rcases ha with rfl | rfl
  · exact ⟨1, rfl, by decide⟩
  · exact ⟨5, rfl, by decide⟩

end Verif.Props
