import Verif.Lemmas.SIMD5
import Verif.Lemmas.HavalObj
import Verif.LoopBuf
import Verif.Tail
namespace Verif.SIMD
open Verif.Spec.SIMD (Variant)

/-- The object after the message m. -/
structure Rep (c : Cfg) (iv : List U32) (hs : Nat) (d : Digest) (m : Bytes) : Prop where
  hhs : d.hs = hs
  hiv : d.initVal = iv
  hlen : d.len = BitVec.ofNat 64 m.length
  buf : LoopRep (16 * c.n) (16 * c.n) (fun s m => s = (fullBlocks (16 * c.n) m).foldl (fun s b => compress c s b false) iv) d.state d.x d.nx m

theorem reset_rep (c : Cfg) (iv : List U32) (hs : Nat) (d : Digest) (h1 : d.hs = hs) (h2 : d.initVal = iv) : Rep c iv hs (reset c d) [] :=
  ⟨h1, h2, rfl, LoopRep.init _ _ _ _ (by simp [fullBlocks_nil, reset, h2])⟩

theorem write_rep (c : Cfg) (hn : 0 < c.n) (iv : List U32) (hs : Nat) (d : Digest) (m p : Bytes) (h : Rep c iv hs d m) : Rep c iv hs (write c d p).1 (m ++ p) := by
  refine ⟨h.hhs, h.hiv, ?_, ?_⟩
  · show d.len + BitVec.ofNat 64 p.length = _
    rw [h.hlen, List.length_append, ← BitVec.ofNat_add]
  · refine loopWrite_rep (16 * c.n) (16 * c.n) (by omega) (Nat.le_refl _) _ _ _ ?_ ?_ (p.length + 1) d.state d.x d.nx m p h.buf (by omega)
    · intro s x m p hs hx _ hxt hfb _
      rw [hfb, List.foldl_append, ← hs, List.foldl_cons, List.foldl_nil, ← hxt, List.take_of_length_le (by omega)]
    · intro s m p hs _ hfb _
      rw [hfb]; exact hs

theorem blocks_eq (v : Variant) (hn : 0 < v.n) (m : Bytes) : Spec.SIMD.blocks v m =
    if m.length % (16 * v.n) ≠ 0 then fullBlocks (16 * v.n) m ++ [restBlock (16 * v.n) m ++ zeros (16 * v.n - m.length % (16 * v.n))] else fullBlocks (16 * v.n) m := by
  unfold Spec.SIMD.blocks
  have hlt := Nat.mod_lt m.length (show 0 < 16 * v.n by omega)
  by_cases c : m.length % (16 * v.n) = 0
  · rw [if_neg (by simp [c]), c, Nat.sub_zero, Nat.mod_self]; simp [zeros]
  · rw [if_pos c, Nat.mod_eq_of_lt (show 16 * v.n - m.length % (16 * v.n) < 16 * v.n by omega)]
    rw [(K12.fullBlocks_rest m _ _ (by omega)).1, fullBlocks_one _ (restBlock (16 * v.n) m ++ zeros (16 * v.n - m.length % (16 * v.n))) (by omega) (by rw [List.length_append, zeros_length, restBlock_length]; omega)]

theorem count4 (L ptr : Nat) (h : ptr = L % 64) : (BitVec.ofNat 64 L / BitVec.ofNat 64 64) <<< 9 + (BitVec.ofNat 64 ptr) <<< 3 = BitVec.ofNat 64 (8 * L) := by
  apply BitVec.eq_of_toNat_eq
  rw [BitVec.toNat_add, BitVec.toNat_shiftLeft, BitVec.toNat_shiftLeft, BitVec.toNat_udiv]
  simp only [BitVec.toNat_ofNat, Nat.shiftLeft_eq, Nat.reducePow, Nat.reduceMod]
  omega
theorem count8 (L ptr : Nat) (h : ptr = L % 128) : (BitVec.ofNat 64 L / BitVec.ofNat 64 128) <<< 10 + (BitVec.ofNat 64 ptr) <<< 3 = BitVec.ofNat 64 (8 * L) := by
  apply BitVec.eq_of_toNat_eq
  rw [BitVec.toNat_add, BitVec.toNat_shiftLeft, BitVec.toNat_shiftLeft, BitVec.toNat_udiv]
  simp only [BitVec.toNat_ofNat, Nat.shiftLeft_eq, Nat.reducePow, Nat.reduceMod]
  omega

theorem lastBuf (B : Nat) (buf : Bytes) (h : buf.length = B) (h8 : 8 ≤ B) (n : U64) :
    goCopy (goCopy (goCopy buf 0 (le32 (n.setWidth 32))) 4 (le32 ((n >>> 32).setWidth 32))) 8 (zeros (B - 8)) = le64 n ++ zeros (B - 8) := by
  have l1 : (goCopy buf 0 (le32 (n.setWidth 32))).length = B := by rw [goCopy_length _ _ _ (by omega), h]
  have l2 : (goCopy (goCopy buf 0 (le32 (n.setWidth 32))) 4 (le32 ((n >>> 32).setWidth 32))).length = B := by rw [goCopy_length _ _ _ (by omega), l1]
  have k1 : (le32 (n.setWidth 32)).length = 4 := rfl
  have k2 : (le32 ((n >>> 32).setWidth 32)).length = 4 := rfl
  rw [goCopy_end _ _ _ (by rw [zeros_length]; omega)]
  congr 1
  rw [show (8 : Nat) = 4 + (le32 ((n >>> 32).setWidth 32)).length from rfl, goCopy_take _ _ _ (by omega),
    show (4 : Nat) = 0 + (le32 (n.setWidth 32)).length from rfl, goCopy_take _ _ _ (by omega), List.take_zero, List.nil_append, Haval.le64_halves]

/-- The variant, the configuration and the constants that belong together. -/
structure Good (c : Cfg) (v : Variant) (iv : List U32) (hs : Nat) : Prop where
  cfg : CfgOk c v
  sched : SchedOk c v
  hiv : iv = v.iv
  hsz : hs = 4 * v.out

theorem out_eq (state : List U32) (k : Nat) : forLoop 0 ((4 * k) >>> 2) (fun out i => goCopy out (i <<< 2) (le32 (state.getD i 0))) (zeros (4 * k)) =
    (List.range k).flatMap fun i => le32 (state.getD i 0) := by
  rw [show (4 * k) >>> 2 = k by rw [Nat.shiftRight_eq_div_pow]; omega]
  have := copyLoop 4 (fun i => le32 (state.getD i 0)) (fun _ => rfl) k (zeros (4 * k)) (by rw [zeros_length]; omega)
  rw [List.flatMap_def, ← this]
  apply forLoop_congr
  intro s j _ _
  rw [Nat.shiftLeft_eq]

theorem checkSum_eq {c : Cfg} {v : Variant} {iv : List U32} {hs : Nat} (gd : Good c v iv hs) (d : Digest) (m : Bytes) (h : Rep c iv hs d m) : checkSum c d = Spec.SIMD.hash v m := by
  have hn := gd.sched.n
  have h48 := gd.sched.n48
  have hB : 0 < 16 * c.n := by rw [hn]; omega
  have hlt := h.buf.nx_lt hB
  have hxl := h.buf.xl
  have hnx := h.buf.hnx
  rw [restBlock_length] at hnx
  have hrl := restBlock_length (16 * c.n) m
  have hst : ∀ s x l, compress c s x l = Spec.SIMD.compress v l s x := compress_eq gd.sched gd.cfg
  have hcount : ((d.len / BitVec.ofNat 64 (16 * c.n)) <<< (if c.n = 4 then 9 else 10)) + ((BitVec.ofNat 64 d.nx) <<< 3) = BitVec.ofNat 64 (8 * m.length) := by
    rw [h.hlen, hn]
    rw [hn] at hnx
    rcases h48 with e | e
    · rw [e] at hnx ⊢; rw [if_pos rfl]; exact count4 _ _ hnx
    · rw [e] at hnx ⊢; rw [if_neg (by omega)]; exact count8 _ _ hnx
  have hfold : (fullBlocks (16 * v.n) m).foldl (Spec.SIMD.compress v false) v.iv = d.state := by
    rw [h.buf.st, hn, gd.hiv]
    congr 1
    funext s b; rw [hst]
  unfold checkSum Spec.SIMD.hash
  dsimp only
  rw [hcount, h.hhs, gd.hsz, out_eq]
  have key : compress c (if d.nx ≠ 0 then compress c d.state (if d.nx ≠ 0 then goCopy d.x d.nx (zeros (16 * c.n - d.nx)) else d.x) false else d.state)
      (goCopy (goCopy (goCopy (if d.nx ≠ 0 then goCopy d.x d.nx (zeros (16 * c.n - d.nx)) else d.x) 0 (le32 ((BitVec.ofNat 64 (8 * m.length)).setWidth 32))) 4
        (le32 ((BitVec.ofNat 64 (8 * m.length) >>> 32).setWidth 32))) 8 (zeros (16 * c.n - 8))) true =
      Spec.SIMD.compress v true ((Spec.SIMD.blocks v m).foldl (Spec.SIMD.compress v false) v.iv) (le64 (BitVec.ofNat 64 (8 * m.length)) ++ zeros (16 * v.n - 8)) := by
    rw [lastBuf (16 * c.n) _ ?_ (by rw [hn]; omega), hst, hn]
    · congr 1
      rw [blocks_eq v (by omega)]
      rw [hn] at hnx hrl hxl hlt
      rw [← hnx]
      by_cases c0 : d.nx = 0
      · rw [if_neg (by simp [c0]), if_neg (by simp [c0]), hfold]
      · rw [if_pos c0, if_pos c0, if_pos c0, List.foldl_append, List.foldl_cons, List.foldl_nil, hfold, hst, goCopy_end _ _ _ (by rw [zeros_length]; omega), h.buf.pend, hn]
    · split
      · rw [goCopy_length _ _ _ (by omega)]; exact hxl
      · exact hxl
  rw [key]
  rfl

theorem flat_len (f : Nat → U32) (k : Nat) : ((List.range k).flatMap fun i => le32 (f i)).length = 4 * k := by
  induction k with
  | zero => rfl
  | succ k ih => rw [List.range_succ, List.flatMap_append, List.length_append, ih, List.flatMap_cons, List.flatMap_nil, List.append_nil]; show 4 * k + 4 = _; omega

theorem hash_length (v : Variant) (m : Bytes) : (Spec.SIMD.hash v m).length = 4 * v.out := by
  unfold Spec.SIMD.hash; exact flat_len _ _

theorem refines {c : Cfg} {v : Variant} {iv : List U32} {hs : Nat} (gd : Good c v iv hs) : Refines (impl c) (newDigest c hs iv) { H := Spec.SIMD.hash v, size := hs, blockSize := 16 * c.n } := by
  have hn : 0 < c.n := by rw [gd.sched.n]; have := gd.sched.n48; omega
  refine refines_of_sim (impl c) _ _ (Rep c iv hs) ?_ ?_ ?_ ?_ ?_ ?_
  · exact reset_rep _ _ _ _ rfl rfl
  · intro s m p h
    exact ⟨(write c s p).1, rfl, write_rep c hn iv hs s m p h⟩
  · intro s m b h
    refine ⟨s, ?_, h⟩
    show some (s, b ++ checkSum c s) = _
    rw [checkSum_eq gd s m h]
  · intro s m h
    exact reset_rep _ _ _ _ h.hhs h.hiv
  · intro s m h
    exact h.hhs
  · intro s m h
    rfl

theorem sumOf_eq {c : Cfg} {v : Variant} {iv : List U32} {hs : Nat} (gd : Good c v iv hs) (m : Bytes) : sumOf c (newDigest c hs iv) hs m = Spec.SIMD.hash v m := by
  have hn : 0 < c.n := by rw [gd.sched.n]; have := gd.sched.n48; omega
  have h0 : Rep c iv hs (newDigest c hs iv) [] := reset_rep _ _ _ _ rfl rfl
  have h1 := write_rep c hn iv hs _ [] m h0
  unfold sumOf
  rw [checkSum_eq gd _ _ h1, List.nil_append, goCopy_zero_all _ _ (by rw [zeros_length, hash_length, gd.hsz])]

theorem good224 : Good cfg256 (Spec.SIMD.small Spec.SIMD.iv224 7) iv224 28 := ⟨small_cfg _ _, small_sched _ _, by decide +kernel, rfl⟩
theorem good256 : Good cfg256 (Spec.SIMD.small Spec.SIMD.iv256 8) iv256 32 := ⟨small_cfg _ _, small_sched _ _, by decide +kernel, rfl⟩
theorem good384 : Good cfg512 (Spec.SIMD.large Spec.SIMD.iv384 12) iv384 48 := ⟨large_cfg _ _, large_sched _ _, by decide +kernel, rfl⟩
theorem good512 : Good cfg512 (Spec.SIMD.large Spec.SIMD.iv512 16) iv512 64 := ⟨large_cfg _ _, large_sched _ _, by decide +kernel, rfl⟩

end Verif.SIMD
