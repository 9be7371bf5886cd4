import Verif.HashAPI
/-
Division of a message into blocks in which the last block is kept back: it has between 1 and `B`
bytes (none if the message is empty).  Used by constructions that treat the last block specially.
-/
namespace Verif

/-- The blocks before the last one. -/
def initBlocks (B : Nat) (m : Bytes) : List Bytes := fullBlocks B (m.take ((m.length - 1) / B * B))
/-- The last block. -/
def lastBlock (B : Nat) (m : Bytes) : Bytes := m.drop ((m.length - 1) / B * B)

theorem initBlocks_le {B : Nat} {m : Bytes} (hB : 0 < B) (h : m.length ≤ B) : initBlocks B m = [] := by
  unfold initBlocks
  rw [Nat.div_eq_of_lt (by omega), Nat.zero_mul, List.take_zero, fullBlocks_nil]
theorem lastBlock_le {B : Nat} {m : Bytes} (hB : 0 < B) (h : m.length ≤ B) : lastBlock B m = m := by
  unfold lastBlock
  rw [Nat.div_eq_of_lt (by omega), Nat.zero_mul, List.drop_zero]

theorem initBlocks_lastBlock (B : Nat) (m : Bytes) (hB : 0 < B) : (initBlocks B m).flatten ++ lastBlock B m = m := by
  unfold initBlocks lastBlock
  have hle : (m.length - 1) / B * B ≤ m.length := by have := Nat.div_mul_le_self (m.length - 1) B; omega
  rw [fullBlocks_flatten, List.length_take, Nat.min_eq_left hle, Nat.mul_div_cancel _ hB, List.take_take,
    Nat.min_self, List.take_append_drop]

theorem lastBlock_length (B : Nat) (m : Bytes) (hB : 0 < B) : (lastBlock B m).length ≤ B ∧ (m ≠ [] → 0 < (lastBlock B m).length) := by
  unfold lastBlock
  have h := Nat.div_add_mod (m.length - 1) B
  have h2 := Nat.mod_lt (m.length - 1) hB
  rw [Nat.mul_comm] at h
  rw [List.length_drop]
  refine ⟨by omega, fun hm => ?_⟩
  have := List.length_pos_iff.mpr hm
  omega

theorem lazy_count {B k : Nat} {n : Nat} (hB : 0 < B) (hn : 0 < n) : (B * k + n - 1) / B = k + (n - 1) / B := by
  rw [show B * k + n - 1 = (n - 1) + B * k by omega, Nat.add_mul_div_left _ _ hB]; omega

theorem initBlocks_append {B : Nat} {a b : Bytes} (hB : 0 < B) (ha : a.length % B = 0) (hb : b ≠ []) :
    initBlocks B (a ++ b) = fullBlocks B a ++ initBlocks B b := by
  obtain ⟨k, hk⟩ := Nat.dvd_of_mod_eq_zero ha
  have hbl := List.length_pos_iff.mpr hb
  unfold initBlocks
  rw [List.length_append, hk, lazy_count hB hbl, ← fullBlocks_append B _ _ hB ha]
  congr 1
  rw [Nat.add_mul, Nat.mul_comm k B, ← hk, List.take_length_add_append]

theorem lastBlock_append {B : Nat} {a b : Bytes} (hB : 0 < B) (ha : a.length % B = 0) (hb : b ≠ []) :
    lastBlock B (a ++ b) = lastBlock B b := by
  obtain ⟨k, hk⟩ := Nat.dvd_of_mod_eq_zero ha
  have hbl := List.length_pos_iff.mpr hb
  unfold lastBlock
  rw [List.length_append, hk, lazy_count hB hbl, Nat.add_mul, Nat.mul_comm k B, ← hk, List.drop_length_add_append]

/-- `for ; len(p) > B; p = p[B:] { f(p) }`, with as many iterations as bytes at most. -/
def lazyLoop {σ} (B : Nat) (f : σ → Bytes → σ) : Nat → σ → Bytes → σ × Bytes
  | 0, s, p => (s, p)
  | fuel + 1, s, p => if B < p.length then lazyLoop B f fuel (f s (p.take B)) (p.drop B) else (s, p)

theorem lazyLoop_spec {σ} {B : Nat} (f : σ → Bytes → σ) (hB : 0 < B) : ∀ fuel s p, p.length ≤ fuel →
    lazyLoop B f fuel s p = ((initBlocks B p).foldl f s, lastBlock B p) := by
  intro fuel
  induction fuel with
  | zero =>
    intro s p h
    rw [initBlocks_le hB (by omega), lastBlock_le hB (by omega)]; rfl
  | succ n ih =>
    intro s p h
    unfold lazyLoop
    by_cases hc : B < p.length
    · rw [if_pos hc, ih _ _ (by rw [List.length_drop]; omega)]
      have hl : (p.take B).length = B := by rw [List.length_take]; omega
      have hne : p.drop B ≠ [] := by
        intro e; have := congrArg List.length e; rw [List.length_drop, List.length_nil] at this; omega
      have h1 := initBlocks_append (B := B) (a := p.take B) (b := p.drop B) hB (by rw [hl, Nat.mod_self]) hne
      have h2 := lastBlock_append (B := B) (a := p.take B) (b := p.drop B) hB (by rw [hl, Nat.mod_self]) hne
      rw [List.take_append_drop] at h1 h2
      rw [h1, h2, fullBlocks_one B _ hB hl]
      rfl
    · rw [if_neg hc, initBlocks_le hB (by omega), lastBlock_le hB (by omega)]; rfl

/-- Appending bytes that fit into the last block. -/
theorem lazy_small {B : Nat} {m p : Bytes} (hB : 0 < B) (h : (lastBlock B m).length + p.length ≤ B) :
    initBlocks B (m ++ p) = initBlocks B m ∧ lastBlock B (m ++ p) = lastBlock B m ++ p := by
  by_cases hp : p = []
  · subst hp; simp
  have hpl := List.length_pos_iff.mpr hp
  have hq : (m.length - 1) / B * B ≤ m.length := by have := Nat.div_mul_le_self (m.length - 1) B; omega
  have hl : (lastBlock B m).length = m.length - (m.length - 1) / B * B := by unfold lastBlock; rw [List.length_drop]
  have key : ((m ++ p).length - 1) / B = (m.length - 1) / B := by
    rw [List.length_append]
    apply Nat.div_eq_of_lt_le
    · omega
    · rw [Nat.add_mul, Nat.one_mul]; omega
  unfold initBlocks lastBlock
  rw [key, List.take_append_of_le_length hq, List.drop_append_of_le_length hq]
  exact ⟨rfl, rfl⟩

/-- Appending bytes that overflow the last block. -/
theorem lazy_big {B : Nat} {m p : Bytes} (hB : 0 < B) (h : B < (lastBlock B m).length + p.length) :
    initBlocks B (m ++ p) = initBlocks B m ++
      (lastBlock B m ++ p.take (B - (lastBlock B m).length)) :: initBlocks B (p.drop (B - (lastBlock B m).length)) ∧
    lastBlock B (m ++ p) = lastBlock B (p.drop (B - (lastBlock B m).length)) := by
  have hll := (lastBlock_length B m hB).1
  have hlt : (p.take (B - (lastBlock B m).length)).length = B - (lastBlock B m).length := by
    rw [List.length_take]; omega
  have hne : p.drop (B - (lastBlock B m).length) ≠ [] := by
    intro e; have := congrArg List.length e; rw [List.length_drop, List.length_nil] at this; omega
  have hm := initBlocks_lastBlock B m hB
  have hfull : ∀ b ∈ initBlocks B m, b.length = B := fun b hb => mem_fullBlocks_length B _ b hb
  have hq : (m.length - 1) / B * B ≤ m.length := by have := Nat.div_mul_le_self (m.length - 1) B; omega
  have e1 : m ++ p = (m.take ((m.length - 1) / B * B) ++ (lastBlock B m ++ p.take (B - (lastBlock B m).length))) ++
      p.drop (B - (lastBlock B m).length) := by
    rw [← List.append_assoc, List.append_assoc, List.take_append_drop]
    unfold lastBlock
    rw [List.take_append_drop]
  have hA : (m.take ((m.length - 1) / B * B)).length % B = 0 := by
    rw [List.length_take, Nat.min_eq_left hq, Nat.mul_mod_left]
  have hb : (lastBlock B m ++ p.take (B - (lastBlock B m).length)).length = B := by
    rw [List.length_append, hlt]; omega
  have hAB : (m.take ((m.length - 1) / B * B) ++ (lastBlock B m ++ p.take (B - (lastBlock B m).length))).length % B = 0 := by
    rw [List.length_append, hb, Nat.add_mod_right]; exact hA
  rw [e1, initBlocks_append hB hAB hne, lastBlock_append hB hAB hne, fullBlocks_append B _ _ hB hA, fullBlocks_one B _ hB hb]
  refine ⟨?_, rfl⟩
  rw [List.append_assoc]; rfl

/-- A buffer `x` of `B` bytes, of which `nx` hold the last block. -/
structure LazyRepr (B : Nat) (x : Bytes) (nx : Nat) (m : Bytes) : Prop where
  xlen : x.length = B
  off : nx = (lastBlock B m).length
  held : x.take nx = lastBlock B m

end Verif
