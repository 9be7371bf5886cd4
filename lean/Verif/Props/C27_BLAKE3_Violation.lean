import Verif.Lemmas.BLAKE3Write
/-
C27: what happens at 256 chunks.  `pushCV` computes the offset `cv_stack_len * 32` in `uint8`, so the ninth
chaining value is written over the first one, which represents the first 128 chunks of the message.
-/
namespace Verif.BLAKE3
open Verif.Spec

theorem strict_unique : ∀ {l l' : List Nat}, Strict l → Strict l' → sum2 l = sum2 l' → l = l'
  | [], [], _, _, _ => rfl
  | [], f :: l', _, _, e => by have := Nat.two_pow_pos f; simp only [sum2] at e; omega
  | e :: l, [], _, _, h => by have := Nat.two_pow_pos e; simp only [sum2] at h; omega
  | e :: l, f :: l', h1, h2, h => by
    have d1 : 2 ^ e ∣ sum2 (e :: l) := sum2_dvd (k := e) (l := e :: l) (by
      intro x hx; rcases List.mem_cons.mp hx with rfl | hx
      · exact Nat.le_refl _
      · exact Nat.le_of_lt (h1.1 x hx))
    have d2 : 2 ^ f ∣ sum2 (f :: l') := sum2_dvd (k := f) (l := f :: l') (by
      intro x hx; rcases List.mem_cons.mp hx with rfl | hx
      · exact Nat.le_refl _
      · exact Nat.le_of_lt (h2.1 x hx))
    have hef : e ≤ f := strict_ge h2 (by rw [← h]; exact d1) f (List.mem_cons_self ..)
    have hfe : f ≤ e := strict_ge h1 (by rw [h]; exact d2) e (List.mem_cons_self ..)
    have : e = f := by omega
    subst this
    simp only [sum2] at h
    rw [strict_unique h1.2 h2.2 (by omega)]

theorem segs_unique : ∀ {l l' : List Seg}, Sized l → Sized l' → exps l = exps l' → flat l = flat l' → l = l'
  | [], [], _, _, _, _ => rfl
  | [], _ :: _, _, _, e, _ => by simp [exps] at e
  | _ :: _, [], _, _, e, _ => by simp [exps] at e
  | s :: l, t :: l', h1, h2, e, hf => by
    simp only [exps, List.map_cons, List.cons.injEq] at e
    obtain ⟨e1, e2⟩ := e
    have hs : s.2.length = t.2.length := by
      rw [h1 s (List.mem_cons_self ..), h2 t (List.mem_cons_self ..), e1]
    unfold flat at hf
    obtain ⟨f1, f2⟩ := List.append_inj' hf hs
    rw [segs_unique (fun x hx => h1 x (List.mem_cons_of_mem _ hx)) (fun x hx => h2 x (List.mem_cons_of_mem _ hx)) e2 f1, Prod.ext e1 f2]

/-- Nothing but the first chaining value depends on the bytes of the bottom segment. -/
theorem stk_drop (key : List U32) (fl : Byte) (hk : key.length = 8) (e : Nat) (a a' : Bytes) : ∀ u : List Seg,
    (stk key fl (u ++ [(e, a)])).drop 32 = (stk key fl (u ++ [(e, a')])).drop 32
  | [] => by
    simp only [List.nil_append, stk_cons, stk]
    rw [List.drop_of_length_le (Nat.le_of_eq (tree_cv_length _ _ hk _ _)), List.drop_of_length_le (Nat.le_of_eq (tree_cv_length _ _ hk _ _))]
  | s :: u => by
    rw [List.cons_append, List.cons_append, stk_cons, stk_cons]
    have hx : exps (u ++ [(e, a)]) = exps (u ++ [(e, a')]) := by simp [exps]
    have hl : ∀ b, 32 ≤ (stk key fl (u ++ [(e, b)])).length := by
      intro b; rw [stk_length _ _ hk, List.length_append]; simp only [List.length_singleton]; omega
    rw [List.drop_append_of_le_length (hl a), List.drop_append_of_le_length (hl a'), stk_drop key fl hk e a a' u, hx]

/-- The part of the array behind the eighth chaining value is never written. -/
def Tail (d : Digest) : Prop := d.cv_stack.length = 55 * 32 ∧ d.cv_stack.drop 256 = zeros (47 * 32)

theorem goCopy_tail {s x : Bytes} {off : Nat} (h1 : off + 32 ≤ 256) (hx : x.length = 32) (hl : s.length = 55 * 32) :
    (goCopy s off x).length = 55 * 32 ∧ (goCopy s off x).drop 256 = s.drop 256 := by
  refine ⟨by rw [goCopy_length _ _ _ (by omega), hl], ?_⟩
  unfold goCopy
  rw [List.take_of_length_le (l := x) (by omega), List.drop_append, List.drop_of_length_le, List.nil_append, List.drop_drop]
  · congr 1; rw [List.length_append, List.length_take]; omega
  · rw [List.length_append, List.length_take]; omega

theorem uoff (x : Byte) : (x * 32#8).toNat + 32 ≤ 256 := by
  rw [BitVec.toNat_mul]
  simp only [BitVec.toNat_ofNat]
  omega

theorem chainingValue_length (o : Output) : o.chainingValue.length = 32 := by
  unfold Output.chainingValue uint32sToBytes
  rw [flatMap_le32_length]; rfl

theorem Tail.mergeOne {d : Digest} (h : Tail d) : Tail d.mergeOne := by
  have := goCopy_tail (off := ((d.cv_stack_len - 2#8) * 32#8).toNat) (uoff _) (chainingValue_length
    (parent_output (goCopy (zeros 64) 0 ((d.cv_stack.drop ((d.cv_stack_len - 2#8) * 32#8).toNat).take 64)) d.key d.chunk.flags)) h.1
  exact ⟨this.1, this.2.trans h.2⟩

theorem Tail.mergeLoop (post : Nat) : ∀ (fuel : Nat) {d : Digest}, Tail d → Tail (d.mergeLoop post fuel)
  | 0, _, h => h
  | fuel + 1, d, h => by
    unfold Digest.mergeLoop
    split
    · exact Tail.mergeLoop post fuel h.mergeOne
    · exact h

theorem Tail.push {d : Digest} (h : Tail d) {cv : Bytes} (hcv : cv.length = 32) (c : U64) : Tail (d.pushCV cv c) := by
  have h1 : Tail (d.mergeCvStack c) := Tail.mergeLoop _ _ h
  have := goCopy_tail (off := ((d.mergeCvStack c).cv_stack_len * 32#8).toNat) (uoff _) (show (cv.take 32).length = 32 by rw [List.length_take]; omega) h1.1
  exact ⟨this.1, this.2.trans h1.2⟩

theorem parent_node_length (m : Bytes) (key : List U32) (c : U64) (fl : Byte) : (compress_subtree_to_parent_node m key c fl).length = 64 := by
  unfold compress_subtree_to_parent_node
  rw [goCopy_length _ _ _ (Nat.zero_le _), zeros_length]

theorem Tail.subtree {d : Digest} (h : Tail d) (input : Bytes) (n : Nat) : Tail (d.subtree input n) := by
  unfold Digest.subtree
  dsimp only
  split
  · exact h.push (chainingValue_length _) _
  · refine Tail.push (Tail.push h ?_ _) ?_ _
    · rw [List.length_take, parent_node_length]; rfl
    · rw [List.length_drop, parent_node_length]

theorem Tail.writeLoop : ∀ (fuel : Nat) {d : Digest} (input : Bytes), Tail d → Tail (Digest.writeLoop fuel d input).1
  | 0, _, _, h => h
  | fuel + 1, d, input, h => by
    unfold Digest.writeLoop
    split
    · exact Tail.writeLoop fuel _ (h.subtree _ _)
    · exact h

theorem Tail.writeChunk {d : Digest} (h : Tail d) (p : Bytes) : Tail (d.writeChunk p).1 := by
  unfold Digest.writeChunk
  split
  · dsimp only
    generalize (if 1024 - d.chunk.length > p.length then p.length else 1024 - d.chunk.length) = tk
    by_cases hc : (p.drop tk).length > 0
    · rw [if_pos hc]
      exact Tail.push (d := { d with chunk := d.chunk.update (p.take tk) }) h (chainingValue_length _) _
    · rw [if_neg hc]
      exact h
  · exact h

theorem Tail.writeEnd {d : Digest} (h : Tail d) (p : Bytes) : Tail (d.writeEnd p) := by
  unfold Digest.writeEnd
  split
  · exact Tail.mergeLoop _ _ (d := { d with chunk := _ }) h
  · exact h

theorem Tail.write {d : Digest} (h : Tail d) (p : Bytes) : Tail (d.write p).1 := by
  unfold Digest.write
  split
  · exact h
  · have h2 := h.writeChunk p
    rcases hw : d.writeChunk p with ⟨d', _ | input⟩ <;> rw [hw] at h2
    · exact h2
    · dsimp only
      exact (Tail.writeLoop _ _ h2).writeEnd _

/-- After whole chunks, the first step of the next `Write` leaves no pending chunk. -/
theorem between {key : List U32} {fl : Byte} {hs : Nat} (hk : key.length = 8) {d : Digest} {m p : Bytes} (h : DRepr key fl hs d m)
    (hm : m.length % 1024 = 0) (hN : m.length < 256 * 1024) (hp : 0 < p.length) :
    ∃ d' l', d.writeChunk p = (d', some p) ∧ LRepr key fl hs d' l' ∧ flat l' = m := by
  obtain ⟨l, r, hst, hch, rfl, hnear, hr, hstr, hpair, hsz⟩ := h
  have hlen := cs_length hch hr
  have hfl := flat_length hst.sized
  rw [List.length_append, hfl] at hm hN
  unfold Digest.writeChunk
  by_cases hr0 : r = []
  · subst hr0
    rw [if_neg (by rw [hlen]; exact Nat.lt_irrefl _)]
    exact ⟨d, l, rfl, ⟨hst, hch, hnear, hsz⟩, (List.append_nil _).symm⟩
  · have hrl := List.length_pos_iff.mpr hr0
    have hr1 : r.length = 1024 := by omega
    rw [if_pos (by omega), hlen, hr1]
    dsimp only
    rw [Nat.sub_self, show (if (0 : Nat) > p.length then p.length else 0) = 0 from if_neg (by omega), List.take_zero, List.drop_zero, if_pos hp]
    have hu := hch.update hk [] (by rw [List.append_nil]; exact hr)
    rw [List.append_nil] at hu
    have hst' : Stk key fl { d with chunk := d.chunk.update [] } l :=
      ⟨hst.dkey, hu.core.flags, hst.len, hst.total, hst.pre, hst.sized⟩
    have hcv := (hu.output hk (by omega)).cv
    rw [← tree_chunk _ _ _ _ (by omega)] at hcv
    obtain ⟨l', g1, g2, g3, g4, g5, g6, g7⟩ := hst'.push hk hnear (by omega) 0 r _ (by rw [hr1]) rfl
    have := g7 (hstr hr0)
    subst this
    have hctr := hu.core.ctr
    rw [hcv, hctr]
    refine ⟨_, (0, r) :: l', rfl, ?_, rfl⟩
    generalize Digest.pushCV { d with chunk := d.chunk.update [] } _ _ = d2 at g1 g5 g6
    refine ⟨⟨g1.dkey, g1.dfl, g1.len, g1.total, g1.pre, g1.sized⟩, ?_, ⟨fun x _ => Nat.zero_le _, g2⟩, g6.trans hsz⟩
    rw [show sum2 (exps ((0, r) :: l')) = sum2 (exps l') + 1 from Nat.add_comm _ _]
    refine CRepr.fresh _ _ _ _ g1.dkey ?_ rfl rfl rfl g1.dfl
    show d2.chunk.chunk_counter + 1 = _
    rw [g5, BitVec.ofNat_add]
    show (d.chunk.update _).chunk_counter + 1 = _
    rw [hctr]; rfl

theorem chunk_eq {key : List U32} {fl : Byte} {t : Nat} {cs : ChunkState} (h : CRepr key fl t cs []) :
    cs = ⟨key, BitVec.ofNat 64 t, zeros 64, 0#8, 0#8, fl⟩ := by
  have h1 : cs.cv = key := h.core.cv
  have h2 : cs.buf = zeros 64 := h.buf
  have h3 : cs.buf_len = 0#8 := h.len
  have h4 : cs.blocks_compressed = 0#8 := h.core.blocks
  rw [← h1, ← h2, ← h.core.ctr, ← h.core.flags]
  cases cs
  simp only at h3 h4
  subst h3 h4
  rfl

theorem exps254 : exps [(1, []), (2, []), (3, []), (4, []), (5, []), (6, []), (7, [])] = [1, 2, 3, 4, 5, 6, 7] := rfl

theorem flat_snoc (s : Seg) : ∀ u : List Seg, flat (u ++ [s]) = s.2 ++ flat u
  | [] => by simp [flat]
  | t :: u => by rw [List.cons_append]; unfold flat; rw [flat_snoc s u, List.append_assoc]

/-- The two pushes for chunks 254 and 255: the second overwrites the bottom of the stack. -/
theorem push_255 {key : List U32} {fl : Byte} {hs : Nat} (hk : key.length = 8) {d : Digest} {l : List Seg} (h : LRepr key fl hs d l) (ht : Tail d)
    (hsum : sum2 (exps l) = 254) (x y : Bytes) (hx : x.length = 1024) :
    ∃ l1 : List Seg, Sized l1 ∧ exps l1 = [1, 2, 3, 4, 5, 6, 7] ∧ flat l1 = flat l ∧
      (d.pushCV (BLAKE3.tree key fl 254 x).cv 254#64).pushCV (BLAKE3.tree key fl 255 y).cv 255#64 =
        ⟨key, ⟨key, 254#64, zeros 64, 0#8, 0#8, fl⟩, 9#8,
          (BLAKE3.tree key fl 255 y).cv ++ ((stk key fl ((0, x) :: l1)).drop 32 ++ zeros (47 * 32)), hs⟩ := by
  obtain ⟨l1, g1, g2, g3, g4, g5, g6, _⟩ := h.stk.push hk h.near (by omega) 0 x _ hx rfl
  rw [hsum] at g1 g3 g5 g6
  have he : exps l1 = [1, 2, 3, 4, 5, 6, 7] := strict_unique g2 (by simp [Strict]) (by rw [g3]; rfl)
  have hlen : l1.length = 7 := by rw [← exps_length, he]; rfl
  have ht1 : Tail (d.pushCV (BLAKE3.tree key fl 254 x).cv 254#64) := ht.push (tree_cv_length _ _ hk _ _) _
  refine ⟨l1, fun s hs => g1.sized s (List.mem_cons_of_mem _ hs), he, g4, ?_⟩
  rw [show BitVec.ofNat 64 254 = 254#64 from rfl] at g1 g5 g6
  generalize d.pushCV (BLAKE3.tree key fl 254 x).cv 254#64 = d1 at *
  have hl8 : d1.cv_stack_len = 8#8 := by rw [g1.len, List.length_cons, hlen]
  have hm : d1.mergeCvStack 255#64 = d1 := by
    unfold Digest.mergeCvStack Digest.mergeLoop
    rw [hl8, if_neg (by decide)]
  have hcy := tree_cv_length key fl hk 255 y
  obtain ⟨rest, hrest⟩ := g1.pre
  have hS := stk_length key fl hk ((0, x) :: l1)
  rw [List.length_cons, hlen] at hS
  have hrz : rest = zeros (47 * 32) := by
    have := ht1.2
    rw [hrest, List.drop_left' hS] at this
    exact this
  unfold Digest.pushCV
  rw [hm]
  dsimp only
  have hk1 := g1.dkey
  have hc := chunk_eq h.chunk
  rw [hsum] at hc
  rw [hl8, show (8#8 * 32#8).toNat = 0 from rfl, hk1, g5, hc, g6, h.size, hrest, hrz, List.take_of_length_le (by omega)]
  have hst : goCopy (stk key fl ((0, x) :: l1) ++ zeros (47 * 32)) 0 (BLAKE3.tree key fl 255 y).cv =
      (BLAKE3.tree key fl 255 y).cv ++ ((stk key fl ((0, x) :: l1)).drop 32 ++ zeros (47 * 32)) := by
    unfold goCopy
    rw [List.take_zero, List.nil_append, List.take_of_length_le (by rw [List.length_append]; omega), hcy, Nat.zero_add, List.drop_append_of_le_length (by omega)]
  rw [hst]
  rfl

/-- The whole second `Write`. -/
theorem write_255 {key : List U32} {fl : Byte} {hs : Nat} (hk : key.length = 8) {d : Digest} {m p : Bytes} (h : DRepr key fl hs d m) (ht : Tail d)
    (hm : m.length = 254 * 1024) (hp : p.length = 2048) :
    ∃ l1 : List Seg, Sized l1 ∧ exps l1 = [1, 2, 3, 4, 5, 6, 7] ∧ flat l1 = m ∧
      (d.write p).1 = ⟨key, ⟨key, 256#64, zeros 64, 0#8, 0#8, fl⟩, 9#8,
          (BLAKE3.tree key fl 255 (p.drop 1024)).cv ++ ((stk key fl ((0, p.take 1024) :: l1)).drop 32 ++ zeros (47 * 32)), hs⟩ := by
  obtain ⟨d', l, e1, e2, e3⟩ := between hk h (by omega) (by omega) (p := p) (by omega)
  have htd : Tail d' := by have := ht.writeChunk p; rw [e1] at this; exact this
  have hfl := flat_length e2.stk.sized
  have hsum : sum2 (exps l) = 254 := by rw [e3, hm] at hfl; omega
  obtain ⟨l1, s1, s2, s3, s4⟩ := push_255 hk e2 htd hsum (p.take 1024) (p.drop 1024) (by rw [List.length_take]; omega)
  refine ⟨l1, s1, s2, s3.trans e3, ?_⟩
  have hctr : d'.chunk.chunk_counter = 254#64 := by rw [e2.chunk.core.ctr, hsum]
  have hsl : d'.subtreeLen p = 2048 := by
    unfold Digest.subtreeLen
    rw [hctr, hp]; decide
  have hpn := parent_node_eq key fl hk 0 254 p (by rw [hp]) (by omega)
  rw [Nat.pow_zero, Nat.mul_one] at hpn
  have htk : p.take 2048 = p := List.take_of_length_le (by omega)
  have hg5 : ∀ cv : Bytes, (d'.pushCV cv 254#64).chunk = d'.chunk := by
    intro cv
    have hmk : ∀ fuel (dd : Digest) post, (dd.mergeLoop post fuel).chunk = dd.chunk := by
      intro fuel
      induction fuel with
      | zero => intro dd post; rfl
      | succ n ih => intro dd post; unfold Digest.mergeLoop; split
                     · rw [ih]; rfl
                     · rfl
    show (d'.mergeCvStack 254#64).chunk = _
    exact hmk _ _ _
  have hsub : d'.subtree p 2048 = ⟨key, ⟨key, 256#64, zeros 64, 0#8, 0#8, fl⟩, 9#8,
          (BLAKE3.tree key fl 255 (p.drop 1024)).cv ++ ((stk key fl ((0, p.take 1024) :: l1)).drop 32 ++ zeros (47 * 32)), hs⟩ := by
    unfold Digest.subtree
    dsimp only
    rw [if_neg (by decide), htk, e2.stk.dkey, e2.stk.dfl, hctr, show 254#64 = BitVec.ofNat 64 254 from rfl, hpn,
      List.take_left' (tree_cv_length _ _ hk _ _), List.drop_left' (tree_cv_length _ _ hk _ _), hg5, hctr,
      show 254#64 + BitVec.ofNat 64 2048 / 1024#64 / 2 = 255#64 by decide, s4]
    rfl
  unfold Digest.write
  rw [if_neg (by omega), e1]
  dsimp only
  rw [hp]
  have hwl : Digest.writeLoop 2048 d' p = (d'.subtree p 2048, []) := by
    unfold Digest.writeLoop
    rw [if_pos (by omega)]
    dsimp only
    rw [hsl, List.drop_of_length_le (by omega)]
    unfold Digest.writeLoop
    rw [if_neg (by simp)]
  rw [hwl]
  dsimp only
  unfold Digest.writeEnd
  rw [if_neg (by simp)]
  exact hsub

end Verif.BLAKE3

namespace Verif.BLAKE3

theorem exps_snoc {l : List Seg} {v : List Nat} {e : Nat} (h : exps l = v ++ [e]) : ∃ u a, l = u ++ [(e, a)] := by
  unfold exps at h
  obtain ⟨u, w, rfl, _, h2⟩ := List.map_eq_append_iff.mp h
  obtain ⟨x, rfl, h3⟩ := List.map_eq_singleton_iff.mp h2
  exact ⟨u, x.2, by rw [← h3]⟩

theorem impl_run_write (d : Digest) (p : Bytes) (ops : List Op) :
    impl.run d (.write p :: ops) = .wrote (d.write p).2 :: impl.run (d.write p).1 ops := rfl

theorem spec_run_split (S : HashSpec) (p q : Bytes) :
    S.run [] [.write p, .write q, .sum []] = [.wrote p.length, .wrote q.length, .bytes (S.H (p ++ q))] := by
  simp only [HashSpec.run, List.nil_append]

end Verif.BLAKE3

namespace Verif.Props
open Verif.BLAKE3
open Verif.Spec (BLAKE3.hashMode)

/-- **Collisions.**  After `Write` of 254 KiB and `Write` of 2 KiB the object, and so every later result,
does not depend on the first 128 KiB of the message, in any mode. -/
theorem C27_blake3_collision (key : List U32) (hk : key.length = 8) (fl : Byte) (n : Nat) (A A' B C : Bytes)
    (hA : A.length = 128 * 1024) (hA' : A'.length = 128 * 1024) (hB : B.length = 126 * 1024) (hC : C.length = 2048) (ops : List Op) :
    impl.run (newDigest key fl n) (.write (A ++ B) :: .write C :: ops) = impl.run (newDigest key fl n) (.write (A' ++ B) :: .write C :: ops) := by
  have key_ : ∀ A : Bytes, A.length = 128 * 1024 → ∃ l1 : List Seg, Sized l1 ∧ exps l1 = [1, 2, 3, 4, 5, 6, 7] ∧ flat l1 = A ++ B ∧
      (((newDigest key fl n).write (A ++ B)).1.write C).1 = ⟨key, ⟨key, 256#64, zeros 64, 0#8, 0#8, fl⟩, 9#8,
          (Spec.BLAKE3.tree key fl 255 (C.drop 1024)).cv ++ ((stk key fl ((0, C.take 1024) :: l1)).drop 32 ++ zeros (47 * 32)), n⟩ := by
    intro A hA
    have h0 : DRepr key fl n (newDigest key fl n) [] := reset_eq rfl rfl rfl
    have ht : Tail (newDigest key fl n) := ⟨by show (zeros (55 * 32)).length = _; rw [zeros_length], by
      show (zeros (55 * 32)).drop 256 = _
      unfold zeros; rw [List.drop_replicate]⟩
    have h1 := (write_eq hk (A ++ B) h0 (by rw [List.nil_append, List.length_append]; omega)).2
    rw [List.nil_append] at h1
    exact write_255 hk h1 (ht.write _) (by rw [List.length_append]; omega) hC
  obtain ⟨l1, s1, s2, s3, s4⟩ := key_ A hA
  obtain ⟨l2, t1, t2, t3, t4⟩ := key_ A' hA'
  -- the segments above the bottom one are the same
  obtain ⟨u, a, rfl⟩ : ∃ u a, l1 = u ++ [(7, a)] := by
    exact exps_snoc (v := [1, 2, 3, 4, 5, 6]) (by rw [s2]; rfl)
  have ha : a.length = 1024 * 2 ^ 7 := s1 (7, a) (by simp)
  rw [flat_snoc] at s3
  obtain ⟨hAa, hu⟩ := List.append_inj s3 (by show a.length = A.length; omega)
  replace hAa : a = A := hAa
  subst hAa
  have hl2 : l2 = u ++ [(7, A')] := by
    refine segs_unique t1 ?_ ?_ ?_
    · intro s hs
      rcases List.mem_append.mp hs with hs | hs
      · exact s1 s (List.mem_append_left _ hs)
      · rw [List.mem_singleton.mp hs]; exact hA'
    · rw [t2, ← s2]; simp [exps]
    · rw [t3, flat_snoc, hu]
  have hd : (((newDigest key fl n).write (a ++ B)).1.write C).1 = (((newDigest key fl n).write (A' ++ B)).1.write C).1 := by
    rw [s4, t4, hl2, ← List.cons_append, ← List.cons_append, stk_drop key fl hk 7 a A' ((0, C.take 1024) :: u)]
  have hn : ∀ (d : Digest) (p : Bytes), (d.write p).2 = p.length := by
    intro d p
    unfold Digest.write
    split
    · rfl
    · rcases d.writeChunk p with ⟨d', _ | input⟩ <;> rfl
  rw [impl_run_write, impl_run_write, impl_run_write, impl_run_write, hd, hn, hn, hn, hn, List.length_append, List.length_append, hA, hA']

/-- So if the digest met its contract for messages of 256 KiB, BLAKE3 itself would not depend on the
first half of such a message. -/
theorem C27_blake3_violated (h : Refines impl (NewWithSize 32) { H := Spec.BLAKE3.hash 32, size := 32, blockSize := 64 })
    (A A' B : Bytes) (hA : A.length = 128 * 1024) (hA' : A'.length = 128 * 1024) (hB : B.length = 128 * 1024) :
    Spec.BLAKE3.hash 32 (A ++ B) = Spec.BLAKE3.hash 32 (A' ++ B) := by
  have hc := C27_blake3_collision Spec.BLAKE3.IV rfl 0 32 A A' (B.take (126 * 1024)) (B.drop (126 * 1024)) hA hA'
    (by rw [List.length_take]; omega) (by rw [List.length_drop]; omega) [.sum []]
  have e : ∀ A, HashSpec.run { H := Spec.BLAKE3.hash 32, size := 32, blockSize := 64 } [] [.write (A ++ B.take (126 * 1024)), .write (B.drop (126 * 1024)), .sum []] =
      [.wrote (A ++ B.take (126 * 1024)).length, .wrote (B.drop (126 * 1024)).length, .bytes (Spec.BLAKE3.hash 32 (A ++ B))] := by
    intro A
    rw [spec_run_split, List.append_assoc, List.take_append_drop]
  have h1 := h [.write (A ++ B.take (126 * 1024)), .write (B.drop (126 * 1024)), .sum []]
  have h2 := h [.write (A' ++ B.take (126 * 1024)), .write (B.drop (126 * 1024)), .sum []]
  rw [e] at h1 h2
  have h3 : impl.run (NewWithSize 32) [.write (A ++ B.take (126 * 1024)), .write (B.drop (126 * 1024)), .sum []] =
    impl.run (NewWithSize 32) [.write (A' ++ B.take (126 * 1024)), .write (B.drop (126 * 1024)), .sum []] := hc
  rw [h1, h2] at h3
  simp only [List.cons.injEq, Out.bytes.injEq] at h3
  exact h3.2.2.1

end Verif.Props
