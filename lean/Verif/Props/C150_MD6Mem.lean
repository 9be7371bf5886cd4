import Verif.Model.MD6Mem
import Verif.Lemmas.GoSlice
/-
C150: what the md6 constructors do to the memory behind the key.
-/
namespace Verif.Props
open Verif.MD6 Verif.MD6Mem Verif.GoSlice

theorem C150.pad_own (n : Nat) (mem d : Bytes) : padKey n mem (.own d) = (mem, .own (d ++ zeros n)) := by
  induction n generalizing d with
  | zero => simp [padKey, zeros]
  | succ n ih =>
    unfold padKey
    show padKey n mem (.own (d ++ [0])) = _
    rw [ih, List.append_assoc]
    rfl

/-- The loop that pads the key: the contents are right, and what changes in the memory is set to zero. -/
theorem C150.pad (n : Nat) : ∀ (mem : Bytes) (s : Slice), s.Valid mem →
    (padKey n mem (.ref s)).2.get (padKey n mem (.ref s)).1 = s.get mem ++ zeros n ∧
    (padKey n mem (.ref s)).1.length = mem.length ∧
    ∀ i, (padKey n mem (.ref s)).1[i]? =
      if s.off + s.len ≤ i ∧ i < s.off + min s.cap (s.len + n) then some 0 else mem[i]? := by
  induction n with
  | zero =>
    intro mem s h
    refine ⟨(List.append_nil _).symm, rfl, fun i => ?_⟩
    rw [if_neg (by omega)]; rfl
  | succ n ih =>
    intro mem s h
    obtain ⟨h1, h2⟩ := h
    by_cases hc : s.len + 1 ≤ s.cap
    · have e : padKey (n + 1) mem (.ref s) = padKey n (goCopy mem (s.off + s.len) [0]) (.ref { s with len := s.len + 1 }) := by
        unfold padKey
        dsimp only
        rw [show GoSlice.append mem (.ref s) [0x00] = (goCopy mem (s.off + s.len) [0], .ref { s with len := s.len + 1 }) from if_pos hc]
        cases n <;> rfl
      have hl : (goCopy mem (s.off + s.len) [0]).length = mem.length := copy_length _ _ _ (by show _ + 1 ≤ _; omega)
      obtain ⟨a, b, c⟩ := ih (goCopy mem (s.off + s.len) [0]) { s with len := s.len + 1 } ⟨hc, by rw [hl]; exact h2⟩
      rw [e]
      refine ⟨?_, by rw [b, hl], fun i => ?_⟩
      · rw [a, show Slice.get { s with len := s.len + 1 } (goCopy mem (s.off + s.len) [0]) = s.get mem ++ [0] from
          grow_get s mem [0] (by show _ + 1 ≤ _; omega), List.append_assoc]
        rfl
      · rw [c, copy_get _ _ _ _ (by show _ + 1 ≤ _; omega)]
        simp only [List.length_singleton]
        by_cases hi : i = s.off + s.len
        · rw [if_neg (by omega), if_neg (by omega), if_pos (by omega), if_pos (by omega), hi, Nat.sub_self]; rfl
        · by_cases hz : s.off + (s.len + 1) ≤ i ∧ i < s.off + min s.cap (s.len + 1 + n)
          · rw [if_pos hz, if_pos (by omega)]
          · rw [if_neg hz, if_neg (c := s.off + s.len ≤ i ∧ _) (by omega)]
            by_cases hlt : i < s.off + s.len
            · rw [if_pos hlt]
            · rw [if_neg hlt, if_neg (by omega)]
    · have e : padKey (n + 1) mem (.ref s) = (mem, .own (s.get mem ++ zeros (n + 1))) := by
        unfold padKey
        dsimp only
        rw [show GoSlice.append mem (.ref s) [0x00] = (mem, .own (s.get mem ++ [0])) from if_neg hc]
        show padKey n mem (.own (s.get mem ++ [0])) = _
        rw [C150.pad_own, List.append_assoc]
        rfl
      rw [e]
      refine ⟨rfl, rfl, fun i => ?_⟩
      rw [if_neg (by omega)]

theorem C150.cut_valid (key : Slice) (mem : Bytes) (h : key.Valid mem) : (cut key).Valid mem := by
  unfold cut
  by_cases h1 : key.len > 64
  · rw [if_pos h1]; exact ⟨by have := h.1; dsimp only; omega, h.2⟩
  · rw [if_neg h1]; exact h

theorem C150.cut_get (key : Slice) (mem : Bytes) (h : key.Valid mem) :
    (cut key).get mem = (if (key.get mem).length > 64 then (key.get mem).take 64 else key.get mem) ∧
    (cut key).len = ((cut key).get mem).length := by
  have hl : (key.get mem).length = key.len := slice_len _ _ (by have := h.1; have := h.2; omega)
  have hv := C150.cut_valid key mem h
  refine ⟨?_, (slice_len _ _ (by have := hv.1; have := hv.2; omega)).symm⟩
  rw [hl]
  unfold cut
  by_cases h1 : key.len > 64
  · rw [if_pos h1, if_pos h1]
    unfold Slice.get
    rw [List.take_take, Nat.min_eq_left (by omega)]
  · rw [if_neg h1, if_neg h1]

/-- The object is the one for the key that was passed (whose answers C71 gives), wherever the key lies. -/
theorem C150_object (mem : Bytes) (size : Nat) (key : Slice) (levels : Int) (h : key.Valid mem) :
    (MD6Mem.newDigest mem size key levels).2 = MD6.newDigest size (key.get mem) levels := by
  obtain ⟨a, _, _⟩ := C150.pad (64 - (cut key).len) mem (cut key) (C150.cut_valid key mem h)
  obtain ⟨c1, c2⟩ := C150.cut_get key mem h
  unfold MD6Mem.newDigest MD6.newDigest
  dsimp only
  rw [a, c2, c1]

/-- The property one would expect, "the caller's memory does not change", holds when the key has 64 bytes or more or no spare capacity;
and in every case nothing changes but the bytes behind the key, up to its capacity and up to 64 bytes from its beginning. -/
theorem C150_memory_partial (mem : Bytes) (size : Nat) (key : Slice) (levels : Int) (h : key.Valid mem) :
    (64 ≤ key.len ∨ key.cap = key.len → (MD6Mem.newDigest mem size key levels).1 = mem) ∧
    (MD6Mem.newDigest mem size key levels).1.length = mem.length ∧
    ∀ i, i < key.off + key.len ∨ key.off + key.cap ≤ i ∨ key.off + 64 ≤ i → (MD6Mem.newDigest mem size key levels).1[i]? = mem[i]? := by
  obtain ⟨_, b, c⟩ := C150.pad (64 - (cut key).len) mem (cut key) (C150.cut_valid key mem h)
  have h1 := h.1
  have hcut : (cut key).off = key.off ∧ (cut key).cap = key.cap ∧ (cut key).len = min 64 key.len := by
    unfold cut
    by_cases h1 : key.len > 64
    · rw [if_pos h1]; exact ⟨rfl, rfl, by dsimp only; omega⟩
    · rw [if_neg h1]; exact ⟨rfl, rfl, by omega⟩
  obtain ⟨e1, e2, e3⟩ := hcut
  refine ⟨fun hk => ?_, b, fun i hi => ?_⟩
  · apply List.ext_getElem?
    intro i
    refine (c i).trans (if_neg ?_)
    rw [e1, e2, e3]
    omega
  · refine (c i).trans (if_neg ?_)
    rw [e1, e2, e3]
    omega

/-- It fails otherwise: every byte behind a shorter key, up to its capacity and up to 64 bytes from its beginning, is zero afterwards. -/
theorem C150_zeroed_violated (mem : Bytes) (size : Nat) (key : Slice) (levels : Int) (h : key.Valid mem) (i : Nat)
    (h1 : key.len ≤ i) (h2 : i < key.cap) (h3 : i < 64) : (MD6Mem.newDigest mem size key levels).1[key.off + i]? = some 0 := by
  obtain ⟨_, _, c⟩ := C150.pad (64 - (cut key).len) mem (cut key) (C150.cut_valid key mem h)
  have hk : cut key = key := by unfold cut; exact if_neg (by omega)
  rw [hk] at c
  unfold MD6Mem.newDigest
  dsimp only
  rw [hk, c, if_pos (by omega)]

/-- So a caller who has the key and the message in one slice, makes an object with the first part and writes the second, gets the same object
for all messages of one length, as long as key and message have no more than 64 bytes. -/
theorem C150_message_violated (key msg msg' : Bytes) (size : Nat) (levels : Int) (hl : msg.length = msg'.length)
    (h : key.length + msg.length ≤ 64) :
    let use := fun (buf : Bytes) =>
      let r := MD6Mem.newDigest buf size ⟨0, key.length, buf.length⟩ levels
      r.2.write (r.1.drop key.length)
    use (key ++ msg) = use (key ++ msg') := by
  have key_lemma : ∀ m : Bytes, key.length + m.length ≤ 64 →
      (MD6Mem.newDigest (key ++ m) size ⟨0, key.length, (key ++ m).length⟩ levels).2 = MD6.newDigest size key levels ∧
      (MD6Mem.newDigest (key ++ m) size ⟨0, key.length, (key ++ m).length⟩ levels).1.drop key.length = zeros m.length := by
    intro m hm
    have hv : (⟨0, key.length, (key ++ m).length⟩ : Slice).Valid (key ++ m) := by
      refine ⟨?_, ?_⟩ <;> dsimp only <;> rw [List.length_append] <;> omega
    refine ⟨?_, ?_⟩
    · rw [C150_object _ _ _ _ hv]
      refine congrArg (fun k => MD6.newDigest size k levels) ?_
      show List.take key.length (List.drop 0 (key ++ m)) = key
      rw [List.drop_zero, List.take_left']
      rfl
    · have hlen := (C150_memory_partial (key ++ m) size ⟨0, key.length, (key ++ m).length⟩ levels hv).2.1
      have hlen' : (key ++ m).length = key.length + m.length := List.length_append
      apply List.ext_getElem?
      intro i
      rw [List.getElem?_drop]
      by_cases hi : i < m.length
      · have := C150_zeroed_violated (key ++ m) size ⟨0, key.length, (key ++ m).length⟩ levels hv (key.length + i)
          (by dsimp only; omega) (by dsimp only; rw [List.length_append]; omega) (by omega)
        dsimp only at this
        rw [Nat.zero_add] at this
        rw [this]
        unfold zeros
        rw [List.getElem?_replicate, if_pos hi]
        rfl
      · rw [List.getElem?_eq_none (by rw [hlen, hlen']; omega), List.getElem?_eq_none (by unfold zeros; rw [List.length_replicate]; omega)]
  intro use
  show (MD6Mem.newDigest (key ++ msg) size ⟨0, key.length, (key ++ msg).length⟩ levels).2.write _ =
    (MD6Mem.newDigest (key ++ msg') size ⟨0, key.length, (key ++ msg').length⟩ levels).2.write _
  obtain ⟨a1, a2⟩ := key_lemma msg h
  obtain ⟨b1, b2⟩ := key_lemma msg' (by omega)
  rw [a1, a2, b1, b2, hl]

/-- A key of two bytes in a slice of five: the three bytes behind it are lost. -/
example : (⟨0, 2, 5⟩ : Slice).Valid [1, 2, 7, 8, 9] ∧ (MD6Mem.newDigest [1, 2, 7, 8, 9] 256 ⟨0, 2, 5⟩ 64).1 = [1, 2, 0, 0, 0] := by
  refine ⟨⟨by decide, by decide⟩, ?_⟩
  decide +kernel

end Verif.Props
