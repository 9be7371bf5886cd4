import Verif.Lemmas.Skein512Mem
import Verif.Props.C39_Skein512
import Verif.Spec.StreamMem
/-
C152: the stream cipher of skein512 in the caller's memory.
-/
namespace Verif.Props
open Verif.Skein512 Verif.GoSlice

/-- Byte `i` of the key stream for a key and nonce: byte `i` of the Skein output with that key and nonce and no message. -/
def keyStream512 (key nonce : Option Bytes) (i : Nat) : Byte :=
  (Spec.Skein.output 8 (Spec.Skein.init 8 (2 ^ 61 - 1) key (nonce.toList.map fun v => (20, v))) (i + 1)).getD i 0

/-- The slices of a call that does not panic: both lie in a memory of `n` bytes, there is room, and the destination is the source, apart from
it, or begins before it. -/
def CallOK (n : Nat) (c : Slice × Slice) : Prop :=
  c.2.len ≤ c.1.len ∧ c.1.off + c.1.len ≤ n ∧ c.2.off + c.2.len ≤ n ∧ Spec.StreamMem.Ordered c.1.off c.2.off c.2.len

namespace C152

theorem seg_get (G : List U64) (a n i : Nat) (h : i < n) : (seg G a n).getD i 0 = byteAt G (a + i) := by
  unfold seg
  rw [List.getD_eq_getElem?_getD, List.getElem?_map, List.getElem?_range' (by omega)]
  simp

theorem init_len (key : Option Bytes) (size : Nat) : ∀ (args : List (Nat × Bytes)), (Spec.Skein.init 8 size key args).length = 8 := by
  intro args
  unfold Spec.Skein.init
  have gen : ∀ (args : List (Nat × Bytes)) (G : List U64), G.length = 8 →
      (args.foldl (fun G a => Spec.Skein.ubi 8 G a.2 a.1) G).length = 8 := by
    intro args
    induction args with
    | nil => intro G h; exact h
    | cons a args ih => intro G _; exact ih _ (Skein.ubi_length 8 (by decide) _ _ _)
  exact gen args _ (Skein.ubi_length 8 (by decide) _ _ _)

theorem key_eq (key nonce : Option Bytes) (i : Nat) : keyStream512 key nonce i =
    byteAt (Spec.Skein.init 8 (2 ^ 61 - 1) key (nonce.toList.map fun v => (20, v))) i := by
  unfold keyStream512
  rw [output_seg _ (C152.init_len _ _ _), seg_get _ _ _ _ (by omega), Nat.zero_add]

theorem start (key nonce : Option Bytes) (hk : ∀ v, key = some v ∨ nonce = some v → v.length < 2 ^ 64) :
    RRepr (Spec.Skein.init 8 (2 ^ 61 - 1) key (nonce.toList.map fun v => (20, v))) (newStream key nonce) 0 := by
  have ha : Args512Fit { key := key, nonce := nonce, noMsg := true } := by
    intro v hv
    rcases hv with h | h | h | h | h
    · exact hk v (Or.inl h)
    · cases h
    · cases h
    · cases h
    · exact hk v (Or.inr h)
  exact (newReader_repr 0x1FFFFFFFFFFFFFFF#64 _ ha).2 rfl

/-- One call. -/
theorem call {G : List U64} (hG : G.length = 8) {r : Reader} {pos : Nat} (h : RRepr G r pos) (mem : Bytes) (c : Slice × Slice)
    (hc : CallOK mem.length c) : ∃ r', Skein512Mem.xorKeyStream r mem c.1 c.2 =
      some (r', Spec.StreamMem.crypt (byteAt G) pos mem c.1.off c.2.off c.2.len) ∧ RRepr G r' (pos + c.2.len) := by
  obtain ⟨c1, c2, c3, c4⟩ := hc
  obtain ⟨a, b⟩ := read_spec hG h c.2.len
  refine ⟨_, ?_, b⟩
  rw [Skein512Mem.xor_eq r mem c.1 c.2 (by rw [h.k, hG]) h.xlen, a]
  obtain ⟨m, e1, e2, e3⟩ := Skein512Mem.loop_get c.1 c.2 c4 (seg G pos c.2.len) mem 0 (by rw [seg_length]; omega)
    (by rw [seg_length]; omega) c2
  rw [e1, Option.map_some]
  congr 2
  unfold Spec.StreamMem.crypt
  apply List.ext_getElem (by rw [List.length_map, List.length_range, e2])
  intro i h1 h2
  have e := e3 i
  rw [List.getD_eq_getElem?_getD, List.getElem?_eq_getElem h1, Option.getD_some] at e
  rw [e, List.getElem_map, List.getElem_range, seg_length, Nat.add_zero, Nat.sub_zero]
  by_cases hi : c.1.off ≤ i ∧ i < c.1.off + c.2.len
  · rw [if_pos hi, if_pos hi, seg_get _ _ _ _ (by omega)]
  · rw [if_neg hi, if_neg hi]

theorem crypt_length (ks : Nat → Byte) (pos : Nat) (mem : Bytes) (d s n : Nat) : (Spec.StreamMem.crypt ks pos mem d s n).length = mem.length := by
  unfold Spec.StreamMem.crypt
  rw [List.length_map, List.length_range]

theorem crypt_get (ks : Nat → Byte) (pos : Nat) (mem : Bytes) (d s n i : Nat) (h : i < mem.length) :
    (Spec.StreamMem.crypt ks pos mem d s n).getD i 0 =
      if d ≤ i ∧ i < d + n then mem.getD (s + (i - d)) 0 ^^^ ks (pos + (i - d)) else mem.getD i 0 := by
  unfold Spec.StreamMem.crypt
  rw [List.getD_eq_getElem?_getD, List.getElem?_map, List.getElem?_range h]
  rfl

theorem run {G : List U64} (hG : G.length = 8) : ∀ (cs : List (Slice × Slice)) (r : Reader) (pos : Nat) (mem : Bytes), RRepr G r pos →
    (∀ c ∈ cs, CallOK mem.length c) → ∃ r', Skein512Mem.run r mem cs =
      some (r', Spec.StreamMem.cryptAll (byteAt G) pos mem (cs.map fun c => (c.1.off, c.2.off, c.2.len))) := by
  intro cs
  induction cs with
  | nil => intro r pos mem _ _; exact ⟨r, rfl⟩
  | cons c cs ih =>
    intro r pos mem h hc
    obtain ⟨r1, e1, e2⟩ := call hG h mem c (hc c (List.mem_cons_self ..))
    obtain ⟨r2, e3⟩ := ih r1 _ _ e2 (fun c' h' => by rw [crypt_length]; exact hc c' (List.mem_cons_of_mem _ h'))
    refine ⟨r2, ?_⟩
    unfold Skein512Mem.run
    rw [e1, Option.bind_some]
    exact e3

end C152

/-- C152: for every key, nonce, memory and sequence of `XORKeyStream` calls whose slices are the same memory, apart, or have the destination
begin before the source, nothing panics and the memory is the one of the specification: every call encrypts the bytes its source held before
it with the next bytes of the key stream, and changes nothing else. -/
theorem C152_memory (key nonce : Option Bytes) (hk : ∀ v, key = some v ∨ nonce = some v → v.length < 2 ^ 64) (mem : Bytes)
    (cs : List (Slice × Slice)) (hc : ∀ c ∈ cs, CallOK mem.length c) :
    (Skein512Mem.run (newStream key nonce) mem cs).map Prod.snd =
      some (Spec.StreamMem.cryptAll (keyStream512 key nonce) 0 mem (cs.map fun c => (c.1.off, c.2.off, c.2.len))) := by
  obtain ⟨r, e⟩ := C152.run (C152.init_len _ _ _) cs _ _ mem (C152.start key nonce hk) hc
  rw [e, show keyStream512 key nonce = byteAt _ from funext (C152.key_eq key nonce)]
  rfl

/-- C152: encrypting a slice in place and decrypting it in place with a second stream of the same key and nonce restores the memory. -/
theorem C152_inplace (key nonce : Option Bytes) (hk : ∀ v, key = some v ∨ nonce = some v → v.length < 2 ^ 64) (mem : Bytes) (s : Slice)
    (hs : s.off + s.len ≤ mem.length) :
    ∃ r m, Skein512Mem.xorKeyStream (newStream key nonce) mem s s = some (r, m) ∧
      (∀ i, i < mem.length → m.getD i 0 = if s.off ≤ i ∧ i < s.off + s.len then mem.getD i 0 ^^^ keyStream512 key nonce (i - s.off) else mem.getD i 0) ∧
      (Skein512Mem.xorKeyStream (newStream key nonce) m s s).map Prod.snd = some mem := by
  have hG := C152.init_len key (2 ^ 61 - 1) (nonce.toList.map fun v => (20, v))
  have hks : keyStream512 key nonce = byteAt _ := funext (C152.key_eq key nonce)
  have ok : ∀ m : Bytes, m.length = mem.length → CallOK m.length (s, s) := fun m hm => ⟨Nat.le_refl _, by dsimp only; omega, by dsimp only; omega, Or.inl (Nat.le_refl _)⟩
  obtain ⟨r, e1, -⟩ := C152.call hG (C152.start key nonce hk) mem (s, s) (ok _ rfl)
  obtain ⟨r', e2, -⟩ := C152.call hG (C152.start key nonce hk) _ (s, s) (ok _ (C152.crypt_length (byteAt _) 0 mem s.off s.off s.len))
  rw [← hks] at e1 e2
  have hget : ∀ i, i < mem.length → (Spec.StreamMem.crypt (keyStream512 key nonce) 0 mem s.off s.off s.len).getD i 0 =
      if s.off ≤ i ∧ i < s.off + s.len then mem.getD i 0 ^^^ keyStream512 key nonce (i - s.off) else mem.getD i 0 := by
    intro i hi
    rw [C152.crypt_get _ _ _ _ _ _ _ hi]
    by_cases h : s.off ≤ i ∧ i < s.off + s.len
    · rw [if_pos h, if_pos h, show s.off + (i - s.off) = i by omega, Nat.zero_add]
    · rw [if_neg h, if_neg h]
  refine ⟨r, _, e1, hget, ?_⟩
  rw [e2, Option.map_some]
  congr 1
  apply List.ext_getElem (by rw [C152.crypt_length, C152.crypt_length])
  intro i h1 h2
  have e := C152.crypt_get (keyStream512 key nonce) 0 (Spec.StreamMem.crypt (keyStream512 key nonce) 0 mem s.off s.off s.len) s.off s.off s.len i
    (by rw [C152.crypt_length]; exact h2)
  rw [List.getD_eq_getElem?_getD, List.getElem?_eq_getElem h1, Option.getD_some] at e
  dsimp only at e ⊢
  rw [e]
  have hm : mem.getD i 0 = mem[i] := by rw [List.getD_eq_getElem?_getD, List.getElem?_eq_getElem h2, Option.getD_some]
  by_cases h : s.off ≤ i ∧ i < s.off + s.len
  · rw [if_pos h, show s.off + (i - s.off) = i by omega, hget i h2, if_pos h, Nat.zero_add, BitVec.xor_assoc, BitVec.xor_self, BitVec.xor_zero, hm]
  · rw [if_neg h, hget i h2, if_neg h, hm]

/-- C152: at every point of such a history a call whose destination is shorter than its source panics. -/
theorem C152_panic (key nonce : Option Bytes) (hk : ∀ v, key = some v ∨ nonce = some v → v.length < 2 ^ 64) (mem : Bytes)
    (cs : List (Slice × Slice)) (hc : ∀ c ∈ cs, CallOK mem.length c) (dst src : Slice) (h : dst.len < src.len) :
    Skein512Mem.run (newStream key nonce) mem (cs ++ [(dst, src)]) = none := by
  have hG := C152.init_len key (2 ^ 61 - 1) (nonce.toList.map fun v => (20, v))
  have gen : ∀ (cs : List (Slice × Slice)) (r : Reader) (pos : Nat) (mem : Bytes),
      RRepr (Spec.Skein.init 8 (2 ^ 61 - 1) key (nonce.toList.map fun v => (20, v))) r pos → (∀ c ∈ cs, CallOK mem.length c) →
      Skein512Mem.run r mem (cs ++ [(dst, src)]) = none := by
    intro cs
    induction cs with
    | nil =>
      intro r pos mem hr _
      rw [List.nil_append]
      unfold Skein512Mem.run
      obtain ⟨a, -⟩ := read_spec hG hr src.len
      rw [Skein512Mem.xor_eq r mem dst src (by rw [hr.k, hG]) hr.xlen, a, Skein512Mem.loop_panic _ _ _ _ (by rw [seg_length]; exact h)]
      rfl
    | cons c cs ih =>
      intro r pos mem hr hc
      obtain ⟨r1, e1, e2⟩ := C152.call hG hr mem c (hc c (List.mem_cons_self ..))
      rw [List.cons_append]
      unfold Skein512Mem.run
      rw [e1, Option.bind_some]
      exact ih r1 _ _ e2 (fun c' h' => by rw [C152.crypt_length]; exact hc c' (List.mem_cons_of_mem _ h'))
  exact gen cs _ 0 mem (C152.start key nonce hk) hc

/-- The condition on the slices is needed: with a destination one byte after the source the second byte is encrypted from the stored first
ciphertext byte, so there is a memory of three bytes for which the result is not the encryption. -/
theorem C152_overlap_sharp (key nonce : Option Bytes) (hk : ∀ v, key = some v ∨ nonce = some v → v.length < 2 ^ 64) :
    ∃ mem : Bytes, mem.length = 3 ∧ (Skein512Mem.run (newStream key nonce) mem [(⟨1, 2, 2⟩, ⟨0, 2, 3⟩)]).map Prod.snd ≠
      some (Spec.StreamMem.cryptAll (keyStream512 key nonce) 0 mem [(1, 0, 2)]) := by
  have hG := C152.init_len key (2 ^ 61 - 1) (nonce.toList.map fun v => (20, v))
  have hr := C152.start key nonce hk
  refine ⟨[0, keyStream512 key nonce 0 ^^^ 1, 0], rfl, ?_⟩
  obtain ⟨a, -⟩ := read_spec hG hr 2
  unfold Skein512Mem.run
  rw [Skein512Mem.xor_eq _ _ _ _ (by rw [hr.k, hG]) hr.xlen]
  dsimp only
  rw [a]
  rw [show seg (Spec.Skein.init 8 (2 ^ 61 - 1) key (nonce.toList.map fun v => (20, v))) 0 2 = [keyStream512 key nonce 0, keyStream512 key nonce 1] by
    rw [C152.key_eq, C152.key_eq]; rfl]
  generalize keyStream512 key nonce = ks
  intro h
  have h2 : ((0#8 ^^^ ks 0) ^^^ ks 1) = (ks 0 ^^^ 1#8) ^^^ ks 1 := by
    have := congrArg (fun o : Option Bytes => (o.getD []).getD 2 0) h
    exact this
  generalize ks 0 = x at h2
  generalize ks 1 = y at h2
  have h3 : x = x ^^^ 1#8 := by
    have := congrArg (· ^^^ y) h2
    simp only [BitVec.xor_assoc, BitVec.xor_self, BitVec.xor_zero, BitVec.zero_xor] at this
    exact this
  have h4 : (0#8 : Byte) = 1#8 := by
    have := congrArg (x ^^^ ·) h3
    simp only [← BitVec.xor_assoc, BitVec.xor_self, BitVec.zero_xor] at this
    exact this
  exact absurd h4 (by decide)

/-- The hypotheses hold, for example, for 100 bytes in place, then 70 of them moved ten bytes down, then an empty call. -/
example : ∀ c ∈ ([(⟨20, 100, 100⟩, ⟨20, 100, 100⟩), (⟨30, 80, 90⟩, ⟨40, 70, 80⟩), (⟨0, 0, 0⟩, ⟨5, 0, 0⟩)] : List (Slice × Slice)),
    CallOK (zeros 128).length c := by
  rw [show (zeros 128).length = 128 from List.length_replicate ..]
  unfold CallOK Spec.StreamMem.Ordered
  decide

end Verif.Props
