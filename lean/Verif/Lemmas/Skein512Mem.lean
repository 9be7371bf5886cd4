import Verif.Model.Skein512Mem
import Verif.Lemmas.Skein512
/-
`XORKeyStream` in memory is one pass over the bytes with what `Read` would have delivered.
-/
namespace Verif.Skein512Mem
open Verif.Skein512 Verif.GoSlice

/-- `s[n:]` without the check. -/
def adv (s : Slice) (n : Nat) : Slice := { off := s.off + n, len := s.len - n, cap := s.cap - n }

theorem adv_adv (s : Slice) (a b : Nat) : adv (adv s a) b = adv s (a + b) := by
  unfold adv; dsimp only; congr 1 <;> omega

theorem loop_cons (mem : Bytes) (dst src : Slice) (i : Nat) (k : Byte) (ks : Bytes) : loop mem dst src i (k :: ks) =
    if i < src.len then
      if i < dst.len then loop (mem.set (dst.off + i) (mem.getD (src.off + i) 0 ^^^ k)) dst src (i + 1) ks else none
    else none := rfl

theorem loop_append (dst src : Slice) : ∀ (a b : Bytes) (mem : Bytes) (i : Nat),
    loop mem dst src i (a ++ b) = (loop mem dst src i a).bind fun m => loop m dst src (i + a.length) b := by
  intro a
  induction a with
  | nil => intros; rfl
  | cons k a ih =>
    intro b mem i
    rw [List.cons_append, loop_cons, loop_cons]
    by_cases h1 : i < src.len
    · by_cases h2 : i < dst.len
      · rw [if_pos h1, if_pos h2, if_pos h1, if_pos h2, ih, List.length_cons, show i + 1 + a.length = i + (a.length + 1) by omega]
      · rw [if_pos h1, if_neg h2, if_pos h1, if_neg h2]; rfl
    · rw [if_neg h1, if_neg h1]; rfl

theorem loop_adv (dst src : Slice) (n : Nat) : ∀ (ks : Bytes) (mem : Bytes) (i : Nat),
    loop mem (adv dst n) (adv src n) i ks = loop mem dst src (n + i) ks := by
  intro ks
  induction ks with
  | nil => intros; rfl
  | cons k ks ih =>
    intro mem i
    unfold loop
    have e1 : (i < (adv src n).len) = (n + i < src.len) := by unfold adv; dsimp only; apply propext; omega
    have e2 : (i < (adv dst n).len) = (n + i < dst.len) := by unfold adv; dsimp only; apply propext; omega
    have e3 : (adv dst n).off + i = dst.off + (n + i) := by unfold adv; dsimp only; omega
    have e4 : (adv src n).off + i = src.off + (n + i) := by unfold adv; dsimp only; omega
    simp only [e1, e2, e3, e4, ih, Nat.add_assoc]

/-- A pass that does not panic stayed inside both slices. -/
theorem loop_len (dst src : Slice) : ∀ (ks : Bytes) (mem m : Bytes) (i : Nat), loop mem dst src i ks = some m →
    ks = [] ∨ (i + ks.length ≤ dst.len ∧ i + ks.length ≤ src.len) := by
  intro ks
  induction ks with
  | nil => intros; exact Or.inl rfl
  | cons k ks ih =>
    intro mem m i h
    unfold loop at h
    by_cases h1 : i < src.len
    · by_cases h2 : i < dst.len
      · rw [if_pos h1, if_pos h2] at h
        right
        rcases ih _ _ _ h with h3 | ⟨h3, h4⟩
        · subst h3; rw [List.length_cons, List.length_nil]; omega
        · rw [List.length_cons]; omega
      · rw [if_pos h1, if_neg h2] at h; cases h
    · rw [if_neg h1] at h; cases h

theorem loop_from (dst src : Slice) (ks mem m : Bytes) (h : loop mem dst src 0 ks = some m) :
    from' dst ks.length = some (adv dst ks.length) ∧ from' src ks.length = some (adv src ks.length) := by
  have : ks.length ≤ dst.len ∧ ks.length ≤ src.len := by
    rcases loop_len _ _ _ _ _ _ h with h | h
    · subst h; exact ⟨Nat.zero_le _, Nat.zero_le _⟩
    · omega
  unfold from'
  rw [if_pos this.1, if_pos this.2]
  exact ⟨rfl, rfl⟩

theorem readLoop_acc : ∀ fuel (r : Reader) (n : Nat) (out : Bytes),
    readLoop fuel r n out = ((readLoop fuel r n []).1, (readLoop fuel r n []).2.1, out ++ (readLoop fuel r n []).2.2) := by
  intro fuel
  induction fuel with
  | zero => intros; simp [readLoop]
  | succ fuel ih =>
    intro r n out
    unfold readLoop
    by_cases h : 64 ≤ n
    · rw [if_pos h, if_pos h, ih _ _ (out ++ r.x), ih _ _ ([] ++ r.x)]; simp
    · rw [if_neg h, if_neg h]; simp

theorem readLoop_len : ∀ fuel (r : Reader) (n : Nat), r.k.length = 8 → r.x.length = 64 →
    (readLoop fuel r n []).2.1 + (readLoop fuel r n []).2.2.length = n := by
  intro fuel
  induction fuel with
  | zero => intros; simp [readLoop]
  | succ fuel ih =>
    intro r n hk hx
    unfold readLoop
    by_cases h : 64 ≤ n
    · rw [if_pos h, readLoop_acc]
      have := ih (nextBlock r) (n - 64) hk (outputBlock_length _ hk _)
      dsimp only
      rw [List.length_append, List.nil_append, hx]
      omega
    · rw [if_neg h]; simp

theorem readLoop_x : ∀ fuel (r : Reader) (n : Nat), r.k.length = 8 → r.x.length = 64 → (readLoop fuel r n []).1.x.length = 64 := by
  intro fuel
  induction fuel with
  | zero => intro r n _ hx; exact hx
  | succ fuel ih =>
    intro r n hk hx
    unfold readLoop
    by_cases h : 64 ≤ n
    · rw [if_pos h, readLoop_acc]
      exact ih (nextBlock r) (n - 64) hk (outputBlock_length _ hk _)
    · rw [if_neg h]; exact hx

theorem blocks_eq : ∀ fuel (r : Reader) (mem : Bytes) (dst src : Slice), r.k.length = 8 → r.x.length = 64 →
    blocks fuel r mem dst src = (loop mem dst src 0 (readLoop fuel r src.len []).2.2).map fun m =>
      ((readLoop fuel r src.len []).1, m, adv dst (readLoop fuel r src.len []).2.2.length, adv src (readLoop fuel r src.len []).2.2.length) := by
  intro fuel
  induction fuel with
  | zero => intro r mem dst src _ _; rfl
  | succ fuel ih =>
    intro r mem dst src hk hx
    unfold blocks readLoop
    by_cases h : 64 ≤ src.len
    · rw [if_pos h, if_pos h, readLoop_acc, List.nil_append]
      dsimp only
      rw [loop_append]
      cases hl : loop mem dst src 0 r.x with
      | none => rfl
      | some m =>
        obtain ⟨f1, f2⟩ := loop_from _ _ _ _ _ hl
        rw [hx] at f1 f2
        rw [Option.bind_some, Option.bind_some, f1, Option.bind_some, f2, Option.bind_some,
          ih (nextBlock r) m (adv dst 64) (adv src 64) hk (outputBlock_length _ hk _), loop_adv, adv_adv, adv_adv, List.length_append, hx,
          Nat.zero_add]
        rfl
    · rw [if_neg h, if_neg h]; rfl

/-- `XORKeyStream` is one pass with the bytes that `Read` would have delivered. -/
theorem xor_eq (r : Reader) (mem : Bytes) (dst src : Slice) (hk : r.k.length = 8) (hx : r.x.length = 64) :
    xorKeyStream r mem dst src = (loop mem dst src 0 (Skein512.read r src.len).2).map fun m => ((Skein512.read r src.len).1, m) := by
  unfold xorKeyStream Skein512.read
  dsimp only
  by_cases h : src.len < 64 - r.nx
  · rw [if_pos h, if_pos h]
  · rw [if_neg h, if_neg h, readLoop_acc]
    have hd : (r.x.drop r.nx).length = 64 - r.nx := by rw [List.length_drop, hx]
    have key : ∀ ks, loop mem dst src 0 (r.x.drop r.nx ++ ks) = (loop mem dst src 0 (r.x.drop r.nx)).bind fun m =>
        loop m (adv dst (64 - r.nx)) (adv src (64 - r.nx)) 0 ks := by
      intro ks
      rw [loop_append, hd]
      congr 1
      funext m
      rw [loop_adv, Nat.zero_add, Nat.add_zero]
    cases hl : loop mem dst src 0 (r.x.drop r.nx) with
    | none =>
      rw [Option.bind_none]
      have k' := fun ks => (key ks).trans (by rw [hl, Option.bind_none])
      split <;> (dsimp only; first | rw [List.append_assoc, k'] | rw [k']) <;> rfl
    | some m =>
      obtain ⟨f1, f2⟩ := loop_from _ _ _ _ _ hl
      rw [hd] at f1 f2
      rw [Option.bind_some, f1, Option.bind_some, f2, Option.bind_some]
      have hs : 64 - r.nx + (adv src (64 - r.nx)).len = src.len := by unfold adv; dsimp only; omega
      have hs' : (adv src (64 - r.nx)).len = src.len - (64 - r.nx) := rfl
      rw [hs, blocks_eq _ (nextBlock r) _ _ _ hk (outputBlock_length _ hk _), hs']
      have hlen := readLoop_len src.len (nextBlock r) (src.len - (64 - r.nx)) hk (outputBlock_length _ hk _)
      generalize readLoop src.len (nextBlock r) (src.len - (64 - r.nx)) [] = R at *
      have hq : (adv (adv src (64 - r.nx)) R.2.2.length).len = R.2.1 := by unfold adv; dsimp only; omega
      have k' : ∀ ks, loop mem dst src 0 (r.x.drop r.nx ++ ks) = loop m (adv dst (64 - r.nx)) (adv src (64 - r.nx)) 0 ks := by
        intro ks; rw [key, hl, Option.bind_some]
      cases hb : loop m (adv dst (64 - r.nx)) (adv src (64 - r.nx)) 0 R.2.2 with
      | none =>
        have : ∀ ks, loop mem dst src 0 (r.x.drop r.nx ++ R.2.2 ++ ks) = none := by
          intro ks; rw [List.append_assoc, k', loop_append, hb]; rfl
        split
        · dsimp only; rw [this]; rfl
        · have t := this []
          rw [List.append_nil] at t
          dsimp only; rw [t]; rfl
      | some m' =>
        rw [Option.map_some, Option.bind_some]
        dsimp only
        rw [hq]
        by_cases h0 : 0 < R.2.1
        · rw [if_pos h0, if_pos h0]
          dsimp only
          rw [List.append_assoc, k', loop_append, hb, Option.bind_some, loop_adv, Nat.add_zero, Nat.zero_add]
        · rw [if_neg h0, if_neg h0]
          dsimp only
          rw [k', hb]
          rfl

/-- A pass over slices that are the same, apart, or ordered: every byte of the source is read before it is overwritten. -/
theorem loop_get (dst src : Slice) (ho : dst.off ≤ src.off ∨ src.off + src.len ≤ dst.off) : ∀ (ks mem : Bytes) (i : Nat),
    i + ks.length ≤ src.len → i + ks.length ≤ dst.len → dst.off + dst.len ≤ mem.length →
    ∃ m, loop mem dst src i ks = some m ∧ m.length = mem.length ∧ ∀ j, m.getD j 0 =
      if dst.off + i ≤ j ∧ j < dst.off + i + ks.length then mem.getD (src.off + (j - dst.off)) 0 ^^^ ks.getD (j - dst.off - i) 0
      else mem.getD j 0 := by
  intro ks
  induction ks with
  | nil =>
    intro mem i _ _ _
    refine ⟨mem, rfl, rfl, fun j => ?_⟩
    rw [if_neg (by simp)]
  | cons k ks ih =>
    intro mem i h1 h2 h3
    rw [List.length_cons] at h1 h2
    unfold loop
    rw [if_pos (by omega), if_pos (by omega)]
    obtain ⟨m, e1, e2, e3⟩ := ih (mem.set (dst.off + i) (mem.getD (src.off + i) 0 ^^^ k)) (i + 1) (by omega) (by omega)
      (by rw [List.length_set]; exact h3)
    refine ⟨m, e1, by rw [e2, List.length_set], fun j => ?_⟩
    have hset : ∀ a v, (mem.set (dst.off + i) v).getD a 0 = if a = dst.off + i then v else mem.getD a 0 := by
      intro a v
      rw [List.getD_eq_getElem?_getD, List.getD_eq_getElem?_getD, List.getElem?_set]
      by_cases ha : dst.off + i = a
      · rw [if_pos ha, if_pos (by omega), if_pos ha.symm]; rfl
      · rw [if_neg ha, if_neg (fun h => ha h.symm)]
    rw [e3, hset, hset, List.length_cons]
    by_cases hj : j = dst.off + i
    · subst hj
      rw [if_neg (by omega), if_pos rfl, if_pos (by omega), show dst.off + i - dst.off = i by omega, Nat.sub_self, List.getD_cons_zero]
    · rw [if_neg hj]
      by_cases hr : dst.off + (i + 1) ≤ j ∧ j < dst.off + (i + 1) + ks.length
      · rw [if_pos hr, if_neg (by omega), if_pos (by omega), show j - dst.off - i = (j - dst.off - (i + 1)) + 1 by omega, List.getD_cons_succ]
      · rw [if_neg hr, if_neg (by omega)]

/-- A destination that is too short panics. -/
theorem loop_panic (dst src : Slice) (ks mem : Bytes) (h : dst.len < ks.length) : loop mem dst src 0 ks = none := by
  cases hl : loop mem dst src 0 ks with
  | none => rfl
  | some m =>
    rcases loop_len _ _ _ _ _ _ hl with h' | h'
    · subst h'; simp at h
    · omega

end Verif.Skein512Mem
