import Verif.Lemmas.Shavite
import Verif.Lemmas.HavalObj
import Verif.LoopBuf0
/-
The digest objects of package shavite.
-/
namespace Verif.Shavite
open Spec.Shavite (cnt cnt0 chain)

theorem markBuf (x : Bytes) (nx L : Nat) (r : Bytes) (hL : L ≤ x.length) (hn : nx < L) (hr : x.take nx = r) :
    goCopy (x.set nx 0x80) (nx + 1) (zeros (L - (nx + 1))) = r ++ 0x80 :: zeros (L - nx - 1) ++ x.drop L := by
  have hrl : r.length = nx := by rw [← hr, List.length_take]; omega
  have hx : x = r ++ (x.drop nx) := by rw [← hr, List.take_append_drop]
  have hdl : (x.drop nx).length = x.length - nx := List.length_drop
  cases hd : x.drop nx with
  | nil => rw [hd] at hdl; simp at hdl; omega
  | cons b rest =>
    rw [hd] at hdl hx
    have hdl' : rest.length + 1 = x.length - nx := by simpa using hdl
    have e2 : x.drop L = rest.drop (L - (nx + 1)) := by
      have : L = nx + 1 + (L - (nx + 1)) := by omega
      have e3 : x.drop (nx + 1) = rest := by
        rw [← List.drop_drop, hd]; rfl
      rw [← e3, List.drop_drop, ← this]
    have e1 : x.set nx 0x80 = r ++ [0x80] ++ (rest.take (L - (nx + 1)) ++ rest.drop (L - (nx + 1))) := by
      rw [List.take_append_drop, hx, List.set_append_right _ _ (by omega), hrl, Nat.sub_self]; simp
    rw [e1, show nx + 1 = (r ++ [(0x80 : Byte)]).length by simp [hrl], goCopy_mid _ _ _ _ (by rw [zeros_length, List.length_take]; simp [hrl]; omega), e2]
    simp [hrl, Nat.sub_sub]

/-- The history may contain a Write only if it starts at the beginning of a block of B bytes or ends before the end of the current block. -/
def okB (B : Nat) (t : Nat) : Op → Prop
  | .write p => (t % B = 0 ∨ t % B + p.length < B) ∧ t + p.length < 2 ^ 64
  | _ => True

/-- Number of bytes written. -/
def nextLen (t : Nat) : Op → Nat
  | .write p => t + p.length
  | .reset => 0
  | _ => t

theorem rest_nil (B : Nat) (m : Bytes) (h : m.length % B = 0) : restBlock B m = [] := by
  apply List.eq_nil_of_length_eq_zero; rw [restBlock_length, h]

theorem foldl_fst {α β} (f : Nat → β → α → β) (l : List α) (n : Nat) (b : β) :
    (l.foldl (fun (s : Nat × β) x => (s.1 + 1, f s.1 s.2 x)) (n, b)).1 = n + l.length := by
  induction l generalizing n b with
  | nil => rfl
  | cons x l ih => rw [List.foldl_cons, ih]; simp; omega

theorem chain_snoc (B : Nat) (comp : List U32 → Bytes → (Nat → U32) → List U32) (h : List U32) (m m' : Bytes) (blk : Bytes)
    (e : fullBlocks B m' = fullBlocks B m ++ [blk]) :
    chain B comp h m' = comp (chain B comp h m) blk (cnt (8 * B * (m.length / B + 1))) := by
  unfold chain
  rw [e, List.foldl_append]
  show comp _ blk (cnt (8 * B * (_ + 1))) = _
  rw [foldl_fst (fun k s blk => comp s blk (cnt (8 * B * (k + 1)))) (fullBlocks B m) 0 h, fullBlocks_length, Nat.zero_add]

theorem chain_same (B : Nat) (comp : List U32 → Bytes → (Nat → U32) → List U32) (h : List U32) (m m' : Bytes)
    (e : fullBlocks B m' = fullBlocks B m) : chain B comp h m' = chain B comp h m := by
  unfold chain; rw [e]

theorem lo_eq (v : U64) (n : Nat) (h : v = BitVec.ofNat 64 n) : v.setWidth 32 = cnt n 0 := by
  subst h
  apply BitVec.eq_of_toNat_eq
  unfold cnt
  simp only [BitVec.toNat_setWidth, BitVec.toNat_ofNat, Nat.mul_zero, Nat.pow_zero, Nat.div_one]
  omega
theorem hi_eq (v : U64) (n : Nat) (h : v = BitVec.ofNat 64 n) : (v >>> 32).setWidth 32 = cnt n 1 := by
  subst h
  apply BitVec.eq_of_toNat_eq
  unfold cnt
  simp only [BitVec.toNat_setWidth, BitVec.toNat_ofNat, BitVec.toNat_ushiftRight, Nat.mul_one, Nat.shiftRight_eq_div_pow]
  omega

namespace D256

theorem compress_cf (h : List U32) (d : Bytes) (c : Nat → U32) : Spec.Shavite.compress256 h d (cf (c 0) (c 1)) = Spec.Shavite.compress256 h d c := by
  have : Spec.Shavite.tw256 (cf (c 0) (c 1)) = Spec.Shavite.tw256 c := by
    funext u
    unfold Spec.Shavite.tw256
    rfl
  unfold Spec.Shavite.compress256 Spec.Shavite.expand256
  rw [this]

theorem blkLen (n : Nat) : ((BitVec.ofNat 64 n / 64 + 1 : U64) <<< 9) = BitVec.ofNat 64 (8 * 64 * (n % 2 ^ 64 / 64 + 1)) := by
  apply BitVec.eq_of_toNat_eq
  simp only [BitVec.toNat_shiftLeft, BitVec.toNat_add, BitVec.toNat_udiv, BitVec.toNat_ofNat, Nat.shiftLeft_eq]
  rw [show (64 : U64).toNat = 64 from rfl, show (1 : U64).toNat = 1 from rfl]
  simp only [Nat.reducePow, Nat.reduceMod]
  omega

theorem bitLen_eq (n : Nat) : ((BitVec.ofNat 64 n / 64 : U64) <<< 9) + (BitVec.ofNat 64 (n % 64) <<< 3) = BitVec.ofNat 64 (8 * n) := by
  apply BitVec.eq_of_toNat_eq
  simp only [BitVec.toNat_shiftLeft, BitVec.toNat_add, BitVec.toNat_udiv, BitVec.toNat_ofNat, Nat.shiftLeft_eq]
  rw [show (64 : U64).toNat = 64 from rfl]
  simp only [Nat.reducePow, Nat.reduceMod]
  omega

/-- A compression with the counter for n message bytes. -/
theorem process_cnt (h : List U32) (blk : Bytes) (n : Nat) (hn : n < 2 ^ 64) (v : U64) (hv : v = BitVec.ofNat 64 (8 * n)) :
    process h blk (v.setWidth 32) ((v >>> 32).setWidth 32) = Spec.Shavite.compress256 h blk (cnt (8 * n)) := by
  rw [process_eq, lo_eq v _ hv, hi_eq v _ hv, compress_cf]

theorem process_zero (h : List U32) (blk : Bytes) : process h blk 0 0 = Spec.Shavite.compress256 h blk cnt0 := by
  rw [process_eq, ← compress_cf _ _ cnt0]; rfl

theorem processBlock_eq (h : List U32) (n : Nat) (blk : Bytes) (hn : n + 64 < 2 ^ 64) :
    processBlock h (BitVec.ofNat 64 n) blk = Spec.Shavite.compress256 h blk (cnt (8 * 64 * (n / 64 + 1))) := by
  unfold processBlock
  dsimp only
  have hm : n % 2 ^ 64 = n := Nat.mod_eq_of_lt (by omega)
  have hv := blkLen n
  rw [hm, show 8 * 64 * (n / 64 + 1) = 8 * (64 * (n / 64 + 1)) by omega] at hv
  rw [process_cnt h blk (64 * (n / 64 + 1)) (by omega) _ hv, show 8 * 64 * (n / 64 + 1) = 8 * (64 * (n / 64 + 1)) by omega]

theorem set_at {α} (a : List α) (l : List α) (i k : Nat) (v : α) (h : i = a.length + k) : (a ++ l).set i v = a ++ l.set k v := by
  subst h; rw [List.set_append_right _ _ (by omega)]; congr 1; congr 1; omega

theorem lenBuf_eq (buf a d : Bytes) (v : U64) (e0 e1 : Byte) (hb : buf = a ++ d) (ha : a.length = 54) (hd : d.length = 10) :
    ((goCopy (goCopy buf 54 (le32 (v.setWidth 32))) 58 (le32 ((v >>> 32).setWidth 32))).set 62 e0).set 63 e1 = a ++ (le64 v ++ [e0, e1]) := by
  subst hb
  have h1 : goCopy (a ++ d) 54 (le32 (v.setWidth 32)) = a ++ (le32 (v.setWidth 32) ++ d.drop 4) := by
    conv_lhs => rw [← List.take_append_drop 4 d]
    rw [← ha]
    exact goCopy_mid _ _ _ _ (by simp [hd, le32])
  have h2 : goCopy (a ++ (le32 (v.setWidth 32) ++ d.drop 4)) 58 (le32 ((v >>> 32).setWidth 32)) = a ++ (le64 v ++ d.drop 8) := by
    have e1 : d.drop 4 = (d.drop 4).take 4 ++ d.drop 8 := by
      conv_lhs => rw [← List.take_append_drop 4 (d.drop 4), List.drop_drop]
    have e2 := goCopy_mid (a ++ le32 (v.setWidth 32)) ((d.drop 4).take 4) (le32 ((v >>> 32).setWidth 32)) (d.drop 8) (by simp [hd, le32])
    rw [e1, ← List.append_assoc, show 58 = (a ++ le32 (v.setWidth 32)).length by rw [List.length_append, ha]; rfl, e2, List.append_assoc,
      ← List.append_assoc (le32 _), Haval.le64_halves]
  rw [h1, h2]
  have hl : (a ++ le64 v).length = 62 := by rw [List.length_append, ha, le64_length]
  obtain ⟨q0, q1, hq⟩ : ∃ q0 q1, d.drop 8 = [q0, q1] := by
    have : (d.drop 8).length = 2 := by rw [List.length_drop, hd]
    match d.drop 8, this with
    | [q0, q1], _ => exact ⟨q0, q1, rfl⟩
  rw [hq, ← List.append_assoc, set_at _ _ 62 0 _ (by omega), set_at _ _ 63 1 _ (by omega), List.append_assoc]
  rfl

structure Rep (hs : Nat) (iv : List U32) (d : Digest) (t : Nat) (m : Bytes) : Prop where
  hhs : d.hs = hs
  hiv : d.initVal = iv
  ht : t = m.length
  hm : m.length < 2 ^ 64
  buf : LoopRep 64 64 (fun (s : List U32 × U64) m => m.length < 2 ^ 64 → s.1 = chain 64 Spec.Shavite.compress256 iv m ∧ s.2 = BitVec.ofNat 64 m.length) (d.s, d.len) d.x d.nx m

theorem reset_rep (hs : Nat) (iv : List U32) (d : Digest) (h1 : d.hs = hs) (h2 : d.initVal = iv) : Rep hs iv d.reset 0 [] :=
  ⟨h1, h2, rfl, Nat.two_pow_pos _, LoopRep.init 64 64 _ _ (fun _ => ⟨by show d.initVal = _; rw [h2]; unfold chain; rw [fullBlocks_nil]; rfl, rfl⟩)⟩

theorem write_rep (hs : Nat) (iv : List U32) (d : Digest) (t : Nat) (m p : Bytes) (h : Rep hs iv d t m) (hok : okB 64 t (.write p)) :
    ∃ d', impl.write d p = some (d', p.length) ∧ Rep hs iv d' (nextLen t (.write p)) (m ++ p) := by
  obtain ⟨hal, hlen⟩ := hok
  have hl : (m ++ p).length = t + p.length := by rw [List.length_append, h.ht]
  refine ⟨_, rfl, ⟨h.hhs, h.hiv, hl.symm, by rw [hl]; exact hlen, ?_⟩⟩
  refine loopWrite_rep0 64 64 (by omega) (by omega) (fun (s : List U32 × U64) m => m.length < 2 ^ 64 → s.1 = chain 64 Spec.Shavite.compress256 iv m ∧ s.2 = BitVec.ofNat 64 m.length)
    (fun (s : List U32 × U64) x _ => (processBlock s.1 s.2 x, s.2 + 64)) (fun s n => (s.1, s.2 + BitVec.ofNat 64 n))
    ?_ ?_ (p.length + 1) (d.s, d.len) d.x d.nx m p h.buf (by omega) ?_
  · intro s x m p hR hr hx hpl hxt hfb hrb hlt
    rw [List.length_append] at hlt
    obtain ⟨r1, r2⟩ := hR (by omega)
    rw [hr] at hpl hxt hfb
    have hp : p.length = 64 := by simpa using hpl
    rw [List.nil_append] at hxt hfb
    rw [List.take_of_length_le (by omega)] at hxt
    subst hxt
    refine ⟨?_, ?_⟩
    · show processBlock s.1 s.2 x = _
      rw [r1, r2, processBlock_eq _ _ _ (by omega), chain_snoc _ _ _ _ _ _ hfb]
    · show s.2 + 64 = _
      rw [r2, List.length_append, hp, BitVec.ofNat_add]; rfl
  · intro s m p hR hpl hfb hrb hlt
    rw [List.length_append] at hlt
    obtain ⟨r1, r2⟩ := hR (by omega)
    refine ⟨?_, ?_⟩
    · show s.1 = _
      rw [r1, chain_same _ _ _ _ _ hfb]
    · show s.2 + _ = _
      rw [r2, List.length_append, BitVec.ofNat_add]
  · rw [restBlock_length, ← h.ht]
    rcases hal with h0 | h1
    · exact .inl (rest_nil _ _ (by rw [← h.ht]; exact h0))
    · exact .inr h1

theorem checkSum_eq (hs : Nat) (iv : List U32) (d : Digest) (t : Nat) (m : Bytes) (h : Rep hs iv d t m) :
    d.checkSum = ((Spec.Shavite.finish 64 8 (8 * hs) (le64 (BitVec.ofNat 64 (8 * m.length))) Spec.Shavite.compress256 (chain 64 Spec.Shavite.compress256 iv m) (restBlock 64 m) m.length).take (hs / 4)).flatMap le32 := by
  obtain ⟨h1, h2⟩ := h.buf.st h.hm
  have h1 : d.s = _ := h1
  have h2 : d.len = _ := h2
  have hnx : d.nx = m.length % 64 := by rw [h.buf.hnx, restBlock_length]
  have hrl : (restBlock 64 m).length = m.length % 64 := restBlock_length _ _
  have hxl := h.buf.xl
  have hlt := h.buf.nx_lt (by omega)
  have hm := h.hm
  have hv : ((d.len / 64) <<< 9) + (BitVec.ofNat 64 d.nx <<< 3) = BitVec.ofNat 64 (8 * m.length) := by rw [h2, hnx, bitLen_eq]
  have he0 : BitVec.ofNat 8 (d.hs <<< 3) = BitVec.ofNat 8 (8 * hs) := by rw [h.hhs, Nat.shiftLeft_eq]; congr 1; omega
  have he1 : BitVec.ofNat 8 (d.hs >>> 5) = BitVec.ofNat 8 (8 * hs / 256) := by rw [h.hhs, Nat.shiftRight_eq_div_pow]; congr 1; omega
  unfold Digest.checkSum Spec.Shavite.finish
  dsimp only
  rw [hrl, ← hnx, hv, he0, he1, h.hhs]
  by_cases c0 : d.nx = 0
  · rw [if_pos c0, if_pos c0]
    have hr : restBlock 64 m = [] := List.eq_nil_of_length_eq_zero (by omega)
    have hbuf := markBuf d.x 0 54 [] (by omega) (by omega) (by rw [List.take_zero])
    rw [process_zero, lenBuf_eq _ ([] ++ 0x80 :: zeros (54 - 0 - 1)) (d.x.drop 54) _ _ _ hbuf (by simp) (by rw [List.length_drop]; omega), h1]
    rfl
  · rw [if_neg c0, if_neg c0]
    by_cases c1 : d.nx < 54
    · rw [if_pos c1, if_pos c1]
      have hbuf := markBuf d.x d.nx 54 (restBlock 64 m) (by omega) (by omega) h.buf.pend
      rw [process_cnt _ _ m.length hm _ rfl, lenBuf_eq _ _ (d.x.drop 54) _ _ _ hbuf
        (by rw [List.length_append, List.length_cons, zeros_length]; omega) (by rw [List.length_drop]; omega), h1]
    · rw [if_neg c1, if_neg c1]
      have hbuf := markBuf d.x d.nx 64 (restBlock 64 m) (by omega) (by omega) h.buf.pend
      rw [List.drop_of_length_le (by omega), List.append_nil] at hbuf
      have hbl : (goCopy (d.x.set d.nx 0x80) (d.nx + 1) (zeros (64 - (d.nx + 1)))).length = 64 := by
        rw [hbuf, List.length_append, List.length_cons, zeros_length]; omega
      rw [process_cnt _ _ m.length hm _ rfl, process_zero, hbuf, h1]
      rw [hbuf] at hbl
      generalize restBlock 64 m ++ 0x80 :: zeros (64 - d.nx - 1) = buf at hbl
      have hz : goCopy buf 0 (zeros 54) = zeros 54 ++ buf.drop 54 := by
        conv_lhs => rw [← List.take_append_drop 54 buf]
        exact goCopy_head _ _ _ (by rw [zeros_length, List.length_take]; omega)
      rw [lenBuf_eq _ _ _ _ _ _ hz (zeros_length _) (by rw [List.length_drop]; omega)]

theorem refines (hs : Nat) (iv : List U32) (H : Bytes → Bytes)
    (hH : ∀ m, H m = ((Spec.Shavite.finish 64 8 (8 * hs) (le64 (BitVec.ofNat 64 (8 * m.length))) Spec.Shavite.compress256 (chain 64 Spec.Shavite.compress256 iv m) (restBlock 64 m) m.length).take (hs / 4)).flatMap le32) :
    RefinesOn (Permits (okB 64) nextLen 0) impl (newDigest hs iv) { H := H, size := hs, blockSize := 64 } := by
  refine refinesOn_permits_of_sim (okB 64) nextLen 0 impl _ _ (Rep hs iv) (reset_rep _ _ _ rfl rfl) (fun d t m p h hok => write_rep hs iv d t m p h hok)
    ?_ (fun d t m h _ => reset_rep hs iv d h.hhs h.hiv) (fun d t m h => ⟨h.hhs, fun _ => h⟩) (fun d t m h => ⟨rfl, fun _ => h⟩)
  intro d t m b h _
  exact ⟨d, by show some (d, b ++ d.checkSum) = some (d, b ++ H m); rw [checkSum_eq hs iv d t m h, hH], h⟩

end D256

namespace D512

theorem compress_cf (h : List U32) (d : Bytes) (c : Nat → U32) (h3 : c 3 = 0) : Spec.Shavite.compress512 h d (cf (c 0) (c 1) (c 2)) = Spec.Shavite.compress512 h d c := by
  have : Spec.Shavite.tw512 (cf (c 0) (c 1) (c 2)) = Spec.Shavite.tw512 c := by
    funext u
    unfold Spec.Shavite.tw512
    rw [h3]
    rfl
  unfold Spec.Shavite.compress512 Spec.Shavite.expand512
  rw [this]

theorem cnt3 (n : Nat) (h : n < 2 ^ 96) : cnt n 3 = 0 := by
  unfold cnt
  rw [Nat.div_eq_of_lt (by simpa using h)]; rfl

theorem top_eq (k n : Nat) (hk : k < 2 ^ 64) (h : n / 2 ^ 64 = k / 2 ^ 54) : ((BitVec.ofNat 64 k >>> 54).setWidth 32 : U32) = cnt n 2 := by
  apply BitVec.eq_of_toNat_eq
  unfold cnt
  simp only [BitVec.toNat_setWidth, BitVec.toNat_ofNat, BitVec.toNat_ushiftRight, Nat.reduceMul, Nat.shiftRight_eq_div_pow]
  rw [h, Nat.mod_eq_of_lt hk]

theorem blkLen (n : Nat) : ((BitVec.ofNat 64 n / 128 + 1 : U64) <<< 10) = BitVec.ofNat 64 (8 * 128 * (n % 2 ^ 64 / 128 + 1)) := by
  apply BitVec.eq_of_toNat_eq
  simp only [BitVec.toNat_shiftLeft, BitVec.toNat_add, BitVec.toNat_udiv, BitVec.toNat_ofNat, Nat.shiftLeft_eq]
  rw [show (128 : U64).toNat = 128 from rfl, show (1 : U64).toNat = 1 from rfl]
  simp only [Nat.reducePow, Nat.reduceMod]
  omega

theorem bitLen_eq (n : Nat) : ((BitVec.ofNat 64 n / 128 : U64) <<< 10) + (BitVec.ofNat 64 (n % 128) <<< 3) = BitVec.ofNat 64 (8 * n) := by
  apply BitVec.eq_of_toNat_eq
  simp only [BitVec.toNat_shiftLeft, BitVec.toNat_add, BitVec.toNat_udiv, BitVec.toNat_ofNat, Nat.shiftLeft_eq]
  rw [show (128 : U64).toNat = 128 from rfl]
  simp only [Nat.reducePow, Nat.reduceMod]
  omega

/-- A compression with the counter for n message bytes. -/
theorem process_cnt (h : List U32) (blk : Bytes) (n : Nat) (hn : n < 2 ^ 64) (v bc : U64) (hv : v = BitVec.ofNat 64 (8 * n)) (hb : bc = BitVec.ofNat 64 (n / 128)) :
    process h blk (v.setWidth 32) ((v >>> 32).setWidth 32) ((bc >>> 54).setWidth 32) = Spec.Shavite.compress512 h blk (cnt (8 * n)) := by
  rw [process_eq, lo_eq v _ hv, hi_eq v _ hv, hb, top_eq (n / 128) (8 * n) (by omega) (by omega), compress_cf _ _ _ (cnt3 _ (by omega))]

theorem process_zero (h : List U32) (blk : Bytes) : process h blk 0 0 0 = Spec.Shavite.compress512 h blk cnt0 := by
  rw [process_eq, ← compress_cf _ _ cnt0 rfl]; rfl

theorem processBlock_eq (h : List U32) (n : Nat) (blk : Bytes) (hn : n + 128 < 2 ^ 64) :
    processBlock h (BitVec.ofNat 64 n) blk = Spec.Shavite.compress512 h blk (cnt (8 * 128 * (n / 128 + 1))) := by
  unfold processBlock
  dsimp only
  have hm : n % 2 ^ 64 = n := Nat.mod_eq_of_lt (by omega)
  have hb : BitVec.ofNat 64 n / 128 + 1 = BitVec.ofNat 64 (n / 128 + 1) := by
    apply BitVec.eq_of_toNat_eq
    simp only [BitVec.toNat_add, BitVec.toNat_udiv, BitVec.toNat_ofNat]
    rw [show (128 : U64).toNat = 128 from rfl, show (1 : U64).toNat = 1 from rfl, hm]
  have hv := blkLen n
  rw [hm, show 8 * 128 * (n / 128 + 1) = 8 * (128 * (n / 128 + 1)) by omega] at hv
  rw [process_cnt h blk (128 * (n / 128 + 1)) (by omega) _ _ hv (by rw [hb, Nat.mul_div_cancel_left _ (by omega)]),
    show 8 * 128 * (n / 128 + 1) = 8 * (128 * (n / 128 + 1)) by omega]

theorem set_at {α} (a : List α) (l : List α) (i k : Nat) (v : α) (h : i = a.length + k) : (a ++ l).set i v = a ++ l.set k v := by
  subst h; rw [List.set_append_right _ _ (by omega)]; congr 1; congr 1; omega

theorem lenBuf_eq (buf a d : Bytes) (v bc : U64) (e0 e1 : Byte) (hb : buf = a ++ d) (ha : a.length = 110) (hd : d.length = 18) :
    ((((((goCopy (goCopy (goCopy buf 110 (le32 (v.setWidth 32))) 114 (le32 ((v >>> 32).setWidth 32))) 118 (le32 ((bc >>> 54).setWidth 32))).set 122 0).set 123 0).set 124 0).set 125 0).set 126 e0).set 127 e1 = a ++ (le64 v ++ (le32 ((bc >>> 54).setWidth 32) ++ [0, 0, 0, 0]) ++ [e0, e1]) := by
  subst hb
  have h1 : goCopy (a ++ d) 110 (le32 (v.setWidth 32)) = a ++ (le32 (v.setWidth 32) ++ d.drop 4) := by
    conv_lhs => rw [← List.take_append_drop 4 d]
    rw [← ha]
    exact goCopy_mid _ _ _ _ (by simp [hd, le32])
  have h2 : goCopy (a ++ (le32 (v.setWidth 32) ++ d.drop 4)) 114 (le32 ((v >>> 32).setWidth 32)) = a ++ (le64 v ++ d.drop 8) := by
    have e1 : d.drop 4 = (d.drop 4).take 4 ++ d.drop 8 := by
      conv_lhs => rw [← List.take_append_drop 4 (d.drop 4), List.drop_drop]
    have e2 := goCopy_mid (a ++ le32 (v.setWidth 32)) ((d.drop 4).take 4) (le32 ((v >>> 32).setWidth 32)) (d.drop 8) (by simp [hd, le32])
    rw [e1, ← List.append_assoc, show 114 = (a ++ le32 (v.setWidth 32)).length by rw [List.length_append, ha]; rfl, e2, List.append_assoc,
      ← List.append_assoc (le32 _), Haval.le64_halves]
  have h3 : goCopy (a ++ (le64 v ++ d.drop 8)) 118 (le32 ((bc >>> 54).setWidth 32)) = (a ++ (le64 v ++ le32 ((bc >>> 54).setWidth 32))) ++ d.drop 12 := by
    have e1 : d.drop 8 = (d.drop 8).take 4 ++ d.drop 12 := by
      conv_lhs => rw [← List.take_append_drop 4 (d.drop 8), List.drop_drop]
    have e2 := goCopy_mid (a ++ le64 v) ((d.drop 8).take 4) (le32 ((bc >>> 54).setWidth 32)) (d.drop 12) (by simp [hd, le32])
    rw [e1, ← List.append_assoc, show 118 = (a ++ le64 v).length by rw [List.length_append, ha, le64_length], e2]
    simp only [List.append_assoc]
  rw [h1, h2, h3]
  have hl : (a ++ (le64 v ++ le32 ((bc >>> 54).setWidth 32))).length = 122 := by rw [List.length_append, List.length_append, ha, le64_length]; rfl
  obtain ⟨q0, q1, q2, q3, q4, q5, hq⟩ : ∃ q0 q1 q2 q3 q4 q5, d.drop 12 = [q0, q1, q2, q3, q4, q5] := by
    have : (d.drop 12).length = 6 := by rw [List.length_drop, hd]
    match d.drop 12, this with
    | [q0, q1, q2, q3, q4, q5], _ => exact ⟨q0, q1, q2, q3, q4, q5, rfl⟩
  rw [hq]
  have hs : ∀ A : Bytes, A.length = 122 → ((((((A ++ [q0, q1, q2, q3, q4, q5]).set 122 0).set 123 0).set 124 0).set 125 0).set 126 e0).set 127 e1 = A ++ [0, 0, 0, 0, e0, e1] := by
    intro A hA
    rw [set_at A _ 122 0 _ (by omega), set_at A _ 123 1 _ (by omega), set_at A _ 124 2 _ (by omega), set_at A _ 125 3 _ (by omega), set_at A _ 126 4 _ (by omega),
      set_at A _ 127 5 _ (by omega)]
    rfl
  rw [hs _ hl]
  simp only [List.append_assoc, List.cons_append, List.nil_append]

structure Rep (hs : Nat) (iv : List U32) (d : Digest) (t : Nat) (m : Bytes) : Prop where
  hhs : d.hs = hs
  hiv : d.initVal = iv
  ht : t = m.length
  hm : m.length < 2 ^ 64
  buf : LoopRep 128 128 (fun (s : List U32 × U64) m => m.length < 2 ^ 64 → s.1 = chain 128 Spec.Shavite.compress512 iv m ∧ s.2 = BitVec.ofNat 64 m.length) (d.s, d.len) d.x d.nx m

theorem reset_rep (hs : Nat) (iv : List U32) (d : Digest) (h1 : d.hs = hs) (h2 : d.initVal = iv) : Rep hs iv d.reset 0 [] :=
  ⟨h1, h2, rfl, Nat.two_pow_pos _, LoopRep.init 128 128 _ _ (fun _ => ⟨by show d.initVal = _; rw [h2]; unfold chain; rw [fullBlocks_nil]; rfl, rfl⟩)⟩

theorem write_rep (hs : Nat) (iv : List U32) (d : Digest) (t : Nat) (m p : Bytes) (h : Rep hs iv d t m) (hok : okB 128 t (.write p)) :
    ∃ d', impl.write d p = some (d', p.length) ∧ Rep hs iv d' (nextLen t (.write p)) (m ++ p) := by
  obtain ⟨hal, hlen⟩ := hok
  have hl : (m ++ p).length = t + p.length := by rw [List.length_append, h.ht]
  refine ⟨_, rfl, ⟨h.hhs, h.hiv, hl.symm, by rw [hl]; exact hlen, ?_⟩⟩
  refine loopWrite_rep0 128 128 (by omega) (by omega) (fun (s : List U32 × U64) m => m.length < 2 ^ 64 → s.1 = chain 128 Spec.Shavite.compress512 iv m ∧ s.2 = BitVec.ofNat 64 m.length)
    (fun (s : List U32 × U64) x _ => (processBlock s.1 s.2 x, s.2 + 128)) (fun s n => (s.1, s.2 + BitVec.ofNat 64 n))
    ?_ ?_ (p.length + 1) (d.s, d.len) d.x d.nx m p h.buf (by omega) ?_
  · intro s x m p hR hr hx hpl hxt hfb hrb hlt
    rw [List.length_append] at hlt
    obtain ⟨r1, r2⟩ := hR (by omega)
    rw [hr] at hpl hxt hfb
    have hp : p.length = 128 := by simpa using hpl
    rw [List.nil_append] at hxt hfb
    rw [List.take_of_length_le (by omega)] at hxt
    subst hxt
    refine ⟨?_, ?_⟩
    · show processBlock s.1 s.2 x = _
      rw [r1, r2, processBlock_eq _ _ _ (by omega), chain_snoc _ _ _ _ _ _ hfb]
    · show s.2 + 128 = _
      rw [r2, List.length_append, hp, BitVec.ofNat_add]; rfl
  · intro s m p hR hpl hfb hrb hlt
    rw [List.length_append] at hlt
    obtain ⟨r1, r2⟩ := hR (by omega)
    refine ⟨?_, ?_⟩
    · show s.1 = _
      rw [r1, chain_same _ _ _ _ _ hfb]
    · show s.2 + _ = _
      rw [r2, List.length_append, BitVec.ofNat_add]
  · rw [restBlock_length, ← h.ht]
    rcases hal with h0 | h1
    · exact .inl (rest_nil _ _ (by rw [← h.ht]; exact h0))
    · exact .inr h1

theorem checkSum_eq (hs : Nat) (iv : List U32) (d : Digest) (t : Nat) (m : Bytes) (h : Rep hs iv d t m) :
    d.checkSum = ((Spec.Shavite.finish 128 16 (8 * hs) (le64 (BitVec.ofNat 64 (8 * m.length)) ++ le64 (BitVec.ofNat 64 (8 * m.length / 2 ^ 64))) Spec.Shavite.compress512 (chain 128 Spec.Shavite.compress512 iv m) (restBlock 128 m) m.length).take (hs / 4)).flatMap le32 := by
  obtain ⟨h1, h2⟩ := h.buf.st h.hm
  have h1 : d.s = _ := h1
  have h2 : d.len = _ := h2
  have hnx : d.nx = m.length % 128 := by rw [h.buf.hnx, restBlock_length]
  have hrl : (restBlock 128 m).length = m.length % 128 := restBlock_length _ _
  have hxl := h.buf.xl
  have hlt := h.buf.nx_lt (by omega)
  have hm := h.hm
  have hv : ((d.len / 128) <<< 10) + (BitVec.ofNat 64 d.nx <<< 3) = BitVec.ofNat 64 (8 * m.length) := by rw [h2, hnx, bitLen_eq]
  have he0 : BitVec.ofNat 8 (d.hs <<< 3) = BitVec.ofNat 8 (8 * hs) := by rw [h.hhs, Nat.shiftLeft_eq]; congr 1; omega
  have he1 : BitVec.ofNat 8 (d.hs >>> 5) = BitVec.ofNat 8 (8 * hs / 256) := by rw [h.hhs, Nat.shiftRight_eq_div_pow]; congr 1; omega
  have hb : d.len / 128 = BitVec.ofNat 64 (m.length / 128) := by
    rw [h2]
    apply BitVec.eq_of_toNat_eq
    simp only [BitVec.toNat_udiv, BitVec.toNat_ofNat]
    rw [show (128 : U64).toNat = 128 from rfl]
    simp only [Nat.reducePow] at *
    omega
  have htop : le32 ((BitVec.ofNat 64 (m.length / 128) >>> 54).setWidth 32) ++ [(0 : Byte), 0, 0, 0] = le64 (BitVec.ofNat 64 (8 * m.length / 2 ^ 64)) := by
    rw [← Haval.le64_halves]
    have e1 : (BitVec.ofNat 64 (m.length / 128) >>> 54).setWidth 32 = (BitVec.ofNat 64 (8 * m.length / 2 ^ 64)).setWidth 32 := by
      apply BitVec.eq_of_toNat_eq
      simp only [BitVec.toNat_setWidth, BitVec.toNat_ofNat, BitVec.toNat_ushiftRight, Nat.shiftRight_eq_div_pow]
      simp only [Nat.reducePow] at *
      omega
    have e2 : ((BitVec.ofNat 64 (8 * m.length / 2 ^ 64)) >>> 32).setWidth 32 = (0 : U32) := by
      apply BitVec.eq_of_toNat_eq
      simp only [BitVec.toNat_setWidth, BitVec.toNat_ofNat, BitVec.toNat_ushiftRight, Nat.shiftRight_eq_div_pow]
      show _ = 0
      simp only [Nat.reducePow] at *
      omega
    rw [e1, e2]
    rfl
  unfold Digest.checkSum Spec.Shavite.finish
  dsimp only
  rw [hrl, ← hnx, hv, he0, he1, h.hhs, hb]
  by_cases c0 : d.nx = 0
  · rw [if_pos c0, if_pos c0]
    have hr : restBlock 128 m = [] := List.eq_nil_of_length_eq_zero (by omega)
    have hbuf := markBuf d.x 0 110 [] (by omega) (by omega) (by rw [List.take_zero])
    rw [process_zero, lenBuf_eq _ ([] ++ 0x80 :: zeros (110 - 0 - 1)) (d.x.drop 110) _ _ _ _ hbuf (by simp) (by rw [List.length_drop]; omega), htop, h1]
    rfl
  · rw [if_neg c0, if_neg c0]
    by_cases c1 : d.nx < 110
    · rw [if_pos c1, if_pos c1]
      have hbuf := markBuf d.x d.nx 110 (restBlock 128 m) (by omega) (by omega) h.buf.pend
      rw [process_cnt _ _ m.length hm _ _ rfl rfl, lenBuf_eq _ _ (d.x.drop 110) _ _ _ _ hbuf
        (by rw [List.length_append, List.length_cons, zeros_length]; omega) (by rw [List.length_drop]; omega), htop, h1]
    · rw [if_neg c1, if_neg c1]
      have hbuf := markBuf d.x d.nx 128 (restBlock 128 m) (by omega) (by omega) h.buf.pend
      rw [List.drop_of_length_le (by omega), List.append_nil] at hbuf
      have hbl : (goCopy (d.x.set d.nx 0x80) (d.nx + 1) (zeros (128 - (d.nx + 1)))).length = 128 := by
        rw [hbuf, List.length_append, List.length_cons, zeros_length]; omega
      rw [process_cnt _ _ m.length hm _ _ rfl rfl, process_zero, hbuf, h1]
      rw [hbuf] at hbl
      generalize restBlock 128 m ++ 0x80 :: zeros (128 - d.nx - 1) = buf at hbl
      have hz : goCopy buf 0 (zeros 110) = zeros 110 ++ buf.drop 110 := by
        conv_lhs => rw [← List.take_append_drop 110 buf]
        exact goCopy_head _ _ _ (by rw [zeros_length, List.length_take]; omega)
      rw [lenBuf_eq _ _ _ _ _ _ _ hz (zeros_length _) (by rw [List.length_drop]; omega), htop]

theorem refines (hs : Nat) (iv : List U32) (H : Bytes → Bytes)
    (hH : ∀ m, H m = ((Spec.Shavite.finish 128 16 (8 * hs) (le64 (BitVec.ofNat 64 (8 * m.length)) ++ le64 (BitVec.ofNat 64 (8 * m.length / 2 ^ 64))) Spec.Shavite.compress512 (chain 128 Spec.Shavite.compress512 iv m) (restBlock 128 m) m.length).take (hs / 4)).flatMap le32) :
    RefinesOn (Permits (okB 128) nextLen 0) impl (newDigest hs iv) { H := H, size := hs, blockSize := 128 } := by
  refine refinesOn_permits_of_sim (okB 128) nextLen 0 impl _ _ (Rep hs iv) (reset_rep _ _ _ rfl rfl) (fun d t m p h hok => write_rep hs iv d t m p h hok)
    ?_ (fun d t m h _ => reset_rep hs iv d h.hhs h.hiv) (fun d t m h => ⟨h.hhs, fun _ => h⟩) (fun d t m h => ⟨rfl, fun _ => h⟩)
  intro d t m b h _
  exact ⟨d, by show some (d, b ++ d.checkSum) = some (d, b ++ H m); rw [checkSum_eq hs iv d t m h, hH], h⟩

end D512

end Verif.Shavite
