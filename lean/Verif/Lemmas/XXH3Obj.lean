import Verif.Lemmas.XXH3Long
/-
xxh3: the digest objects.
-/
namespace Verif.XXH3

theorem kSecret_eq : kSecret = Spec.XXH3.kSecret := rfl

theorem custom_eq (seed : U64) : GenCustomSecret (zeros 192) seed = Spec.XXH3.derive seed := by
  unfold GenCustomSecret
  suffices h : ∀ k, k ≤ 12 → forLoop 0 k (fun c i => goCopy (goCopy c (16 * i) (le64 (getLE64 kSecret (16 * i) + seed))) (16 * i + 8) (le64 (getLE64 kSecret (16 * i + 8) - seed))) (zeros 192) =
      ((List.range k).flatMap fun i => le64 (getLE64 kSecret (16 * i) + seed) ++ le64 (getLE64 kSecret (16 * i + 8) - seed)) ++ zeros (192 - 16 * k) ∧
      ((List.range k).flatMap fun i => le64 (getLE64 kSecret (16 * i) + seed) ++ le64 (getLE64 kSecret (16 * i + 8) - seed)).length = 16 * k by
    have := (h 12 (by decide)).1
    rw [show zeros (192 - 16 * 12) = [] from rfl, List.append_nil] at this
    exact this
  intro k
  induction k with
  | zero => intro _; exact ⟨rfl, rfl⟩
  | succ k ih =>
    intro hk
    obtain ⟨e, l⟩ := ih (by omega)
    rw [forLoop_succ _ _ _ _ (Nat.zero_le _), e, List.range_succ, List.flatMap_append, List.flatMap_singleton]
    generalize ((List.range k).flatMap fun i => le64 (getLE64 kSecret (16 * i) + seed) ++ le64 (getLE64 kSecret (16 * i + 8) - seed)) = F at *
    generalize hu : le64 (getLE64 kSecret (16 * k) + seed) = u
    generalize hv : le64 (getLE64 kSecret (16 * k + 8) - seed) = v
    have lu : u.length = 8 := by rw [← hu]; rfl
    have lv : v.length = 8 := by rw [← hv]; rfl
    refine ⟨?_, by simp only [List.length_append, l, lu, lv]; omega⟩
    have hz : zeros (192 - 16 * k) = zeros 8 ++ (zeros 8 ++ zeros (192 - 16 * (k + 1))) := by
      unfold zeros; rw [List.replicate_append_replicate, List.replicate_append_replicate]; congr 1; omega
    rw [hz]
    have h1 : goCopy (F ++ (zeros 8 ++ (zeros 8 ++ zeros (192 - 16 * (k + 1))))) (16 * k) u = F ++ u ++ (zeros 8 ++ zeros (192 - 16 * (k + 1))) := by
      unfold goCopy
      rw [← l, List.take_left, List.take_of_length_le (by simp only [List.length_append, lu, zeros_length]; omega), lu,
        List.drop_append, List.drop_of_length_le (by omega), show F.length + 8 - F.length = (zeros 8).length by rw [zeros_length]; omega, List.drop_left, List.nil_append]
    have h2 : goCopy (F ++ u ++ (zeros 8 ++ zeros (192 - 16 * (k + 1)))) (16 * k + 8) v = F ++ u ++ v ++ zeros (192 - 16 * (k + 1)) := by
      have hl : (F ++ u).length = 16 * k + 8 := by rw [List.length_append, l, lu]
      unfold goCopy
      rw [← hl, List.take_left, List.take_of_length_le (by simp only [List.length_append, lv, zeros_length]; omega), lv,
        List.drop_append, List.drop_of_length_le (by omega), show (F ++ u).length + 8 - (F ++ u).length = (zeros 8).length by rw [zeros_length]; omega, List.drop_left, List.nil_append]
    rw [h1, h2]; simp only [List.append_assoc]

theorem derive_zero : Spec.XXH3.derive 0#64 = Spec.XXH3.kSecret := by decide +kernel

theorem derive_length (seed : U64) : (Spec.XXH3.derive seed).length = 192 := by
  unfold Spec.XXH3.derive
  rw [List.length_flatMap]
  rfl

/-- The digest after the message `m`. -/
structure Rep (seed : U64) (sec : Bytes) (d : Digest) (m : Bytes) : Prop where
  x : d.x.length = 256
  hseed : d.seed = seed
  hsec : d.secret = sec
  lim : d.secretLimit = sec.length - 64
  per : d.nbStripesPerBlock = Spec.XXH3.perBlock sec
  len : d.len = BitVec.ofNat 64 m.length
  le : d.nx ≤ 256
  pos : m ≠ [] → 1 ≤ d.nx
  sl : d.s.length = 8
  so : d.nbStripesSoFar < Spec.XXH3.perBlock sec
  buf : ∃ q, m.length = 256 * q + d.nx ∧ (d.s, d.nbStripesSoFar) = (stripes m (4 * q)).foldl (Spec.XXH3.stripe sec) (Spec.XXH3.init, 0) ∧
    d.x.take d.nx = m.drop (256 * q) ∧ (0 < q → d.nx < 64 → d.x.drop (192 + d.nx) = (m.take (256 * q)).drop (256 * q - 64 + d.nx))

theorem stripes_append (m p : Bytes) (n : Nat) (h : 64 * n ≤ m.length) : stripes (m ++ p) n = stripes m n := by
  rw [stripes_full _ _ (by rw [List.length_append]; omega), stripes_full _ _ h, List.take_append_of_le_length h]

theorem reset_rep (seed : U64) (sec : Bytes) (hsec : 136 ≤ sec.length) (d : Digest) (h1 : d.seed = seed) (h2 : d.secret = sec) (h3 : d.s.length = 8) :
    Rep seed sec d.reset [] where
  x := zeros_length _
  hseed := h1
  hsec := h2
  lim := by show d.secret.length - 64 = _; rw [h2]
  per := by show (d.secret.length - 64) / 8 = _; rw [h2]; rfl
  len := rfl
  le := Nat.zero_le _
  pos := fun h => absurd rfl h
  sl := by show (goCopy d.s 0 INIT_ACC).length = 8; rw [goCopy_length _ _ _ (Nat.zero_le _), h3]
  so := by show 0 < (sec.length - 64) / 8; omega
  buf := ⟨0, rfl, by
    show (goCopy d.s 0 INIT_ACC, 0) = (Spec.XXH3.init, 0)
    rw [goCopy_zero_all _ _ (by rw [h3]; rfl)]; rfl, rfl, fun h => absurd h (by omega)⟩

theorem new_rep (seed : U64) (sec : Bytes) (hsec : 136 ≤ sec.length) : Rep seed sec (newDigest seed sec) [] := by
  unfold newDigest
  exact reset_rep seed sec hsec _ rfl (goCopy_zero_all _ _ (zeros_length _)) rfl

/-- The loop of `Write`. -/
theorem loop_eq (sec : Bytes) (hsec : 136 ≤ sec.length) : ∀ (fuel : Nat) (d : Digest) (p : Bytes), p.length ≤ fuel → d.secret = sec → d.secretLimit = sec.length - 64 →
    d.nbStripesPerBlock = Spec.XXH3.perBlock sec → d.s.length = 8 → d.nbStripesSoFar < Spec.XXH3.perBlock sec →
    let st := (stripes p (4 * ((p.length - 1) / 256))).foldl (Spec.XXH3.stripe sec) (d.s, d.nbStripesSoFar)
    d.loop fuel p = ({ d with s := st.1, nbStripesSoFar := st.2 }, p.drop (256 * ((p.length - 1) / 256))) ∧ st.1.length = 8 ∧ st.2 < Spec.XXH3.perBlock sec
  | 0, d, p, hf, _, _, _, hs, ho => by
    have : p = [] := List.eq_nil_of_length_eq_zero (by omega)
    subst this
    exact ⟨rfl, hs, ho⟩
  | fuel + 1, d, p, hf, h1, h2, h3, hs, ho => by
    have hpb : 9 ≤ Spec.XXH3.perBlock sec := by unfold Spec.XXH3.perBlock; omega
    by_cases h : p.length > 256
    · have hc := consume_eq sec p d.nbStripesSoFar d.s hs 4 ho (by omega)
      have hk : (p.length - 1) / 256 = ((p.drop 256).length - 1) / 256 + 1 := by rw [List.length_drop]; omega
      have hst : stripes p (4 * ((p.length - 1) / 256)) = stripes p 4 ++ stripes (p.drop 256) (4 * (((p.drop 256).length - 1) / 256)) := by
        rw [hk, Nat.mul_succ, Nat.add_comm, stripes_add]
      rw [hst, List.foldl_append]
      have hl : d.loop (fuel + 1) p = Digest.loop fuel { d with s := ((stripes p 4).foldl (Spec.XXH3.stripe sec) (d.s, d.nbStripesSoFar)).1, nbStripesSoFar := ((stripes p 4).foldl (Spec.XXH3.stripe sec) (d.s, d.nbStripesSoFar)).2 } (p.drop 256) := by
        rw [← hc.1, ← h2, ← h3]
        subst h1
        conv_lhs => unfold Digest.loop
        rw [if_pos h]
      rw [hl]
      generalize (stripes p 4).foldl (Spec.XXH3.stripe sec) (d.s, d.nbStripesSoFar) = st at *
      have ih := loop_eq sec hsec fuel { d with s := st.1, nbStripesSoFar := st.2 } (p.drop 256) (by rw [List.length_drop]; omega) h1 h2 h3 hc.2.1 hc.2.2
      dsimp only at ih ⊢
      rw [ih.1, List.drop_drop, hk, Nat.mul_succ, Nat.add_comm 256]
      exact ⟨rfl, ih.2⟩
    · have hk : (p.length - 1) / 256 = 0 := by omega
      unfold Digest.loop
      rw [if_neg h, hk]
      exact ⟨rfl, hs, ho⟩

/-- What holds when `Write` has stored the rest. -/
theorem store_rep {seed : U64} {sec : Bytes} {d : Digest} {M p : Bytes} {q : Nat} (h1 : d.seed = seed) (h2 : d.secret = sec) (h3 : d.secretLimit = sec.length - 64)
    (h4 : d.nbStripesPerBlock = Spec.XXH3.perBlock sec) (h5 : d.len = BitVec.ofNat 64 M.length) (h6 : d.s.length = 8) (h7 : d.nbStripesSoFar < Spec.XXH3.perBlock sec)
    (hx : d.x.length = 256) (hp1 : 1 ≤ p.length) (hp2 : p.length ≤ 256) (hM : M.length = 256 * q + p.length) (hp : p = M.drop (256 * q))
    (hst : (d.s, d.nbStripesSoFar) = (stripes M (4 * q)).foldl (Spec.XXH3.stripe sec) (Spec.XXH3.init, 0))
    (hc : 0 < q → d.x.drop 192 = (M.take (256 * q)).drop (256 * q - 64)) :
    Rep seed sec { d with x := goCopy d.x 0 p, nx := min 256 p.length } M := by
  have hn : min 256 p.length = p.length := Nat.min_eq_right hp2
  have hg : goCopy d.x 0 p = p ++ d.x.drop p.length := by
    unfold goCopy
    rw [List.take_zero, List.nil_append, List.take_of_length_le (by omega), Nat.zero_add]
  refine ⟨?_, h1, h2, h3, h4, h5, by show min 256 p.length ≤ 256; omega, fun _ => by show 1 ≤ min 256 p.length; omega, h6, h7, q, ?_, hst, ?_, ?_⟩
  · show (goCopy d.x 0 p).length = 256
    rw [goCopy_length _ _ _ (Nat.zero_le _), hx]
  · show M.length = 256 * q + min 256 p.length
    rw [hn]; exact hM
  · show (goCopy d.x 0 p).take (min 256 p.length) = _
    rw [hn, hg, List.take_left, hp]
  · intro hq hlt
    show (goCopy d.x 0 p).drop (192 + min 256 p.length) = (M.take (256 * q)).drop (256 * q - 64 + min 256 p.length)
    have hlt' : p.length < 64 := by have : min 256 p.length < 64 := hlt; omega
    rw [hn, hg, List.drop_append, List.drop_of_length_le (by omega), List.nil_append, List.drop_drop, ← List.drop_drop (i := p.length) (j := 256 * q - 64), ← hc hq, List.drop_drop]
    congr 1; omega

/-- When `Write` panics: the message so far is not empty, 256 to 319 bytes are written, and the new total is a multiple of 256. -/
def Panics (n k : Nat) : Prop := 0 < n ∧ 256 ≤ k ∧ k < 320 ∧ (n + k) % 256 = 0

instance (n k : Nat) : Decidable (Panics n k) := by unfold Panics; infer_instance

theorem write_rep {seed : U64} {sec : Bytes} (hsec : 136 ≤ sec.length) {d : Digest} {m : Bytes} (h : Rep seed sec d m) (p : Bytes) :
    (Panics m.length p.length → d.write p = none) ∧ (¬ Panics m.length p.length → ∃ d', d.write p = some (d', p.length) ∧ Rep seed sec d' (m ++ p)) := by
  have hpb : 9 ≤ Spec.XXH3.perBlock sec := by unfold Spec.XXH3.perBlock; omega
  obtain ⟨q, hq, hst, hbuf, hcat⟩ := h.buf
  have hlen : d.len + BitVec.ofNat 64 p.length = BitVec.ofNat 64 (m ++ p).length := by rw [h.len, List.length_append, BitVec.ofNat_add]
  have hm0 : d.nx = 0 → m = [] := fun h0 => by
    by_cases hm : m = []
    · exact hm
    · have := h.pos hm; omega
  have hle := h.le
  unfold Digest.write
  by_cases hp0 : p.length = 0
  · have : p = [] := List.eq_nil_of_length_eq_zero hp0
    subst this
    refine ⟨fun hpan => absurd hpan.2.1 (by simp), fun _ => ⟨{ d with len := d.len + BitVec.ofNat 64 0 }, rfl, ?_⟩⟩
    rw [List.append_nil]
    exact ⟨h.x, h.hseed, h.hsec, h.lim, h.per, by show d.len + BitVec.ofNat 64 0 = _; rw [h.len]; simp, h.le, h.pos, h.sl, h.so, h.buf⟩
  dsimp only
  rw [if_neg hp0]
  by_cases hfit : p.length ≤ 256 - d.nx
  · rw [if_pos hfit]
    refine ⟨fun hpan => ?_, fun _ => ⟨_, rfl, ?_⟩⟩
    · obtain ⟨a, b, c, e⟩ := hpan
      by_cases h0 : d.nx = 0
      · rw [hm0 h0] at a; simp at a
      · omega
    have hg : goCopy d.x d.nx p = d.x.take d.nx ++ p ++ d.x.drop (d.nx + p.length) := by
      unfold goCopy; rw [List.take_of_length_le (l := p) (by rw [h.x]; exact hfit)]
    have ht : (d.x.take d.nx).length = d.nx := by rw [List.length_take, h.x]; omega
    refine ⟨?_, h.hseed, h.hsec, h.lim, h.per, hlen, ?_, ?_, h.sl, h.so, q, ?_, ?_, ?_, ?_⟩
    · show (goCopy d.x d.nx p).length = 256
      rw [goCopy_length _ _ _ (by rw [h.x]; exact h.le), h.x]
    · show d.nx + p.length ≤ 256; omega
    · intro _; show 1 ≤ d.nx + p.length; omega
    · show (m ++ p).length = 256 * q + (d.nx + p.length); rw [List.length_append]; omega
    · show (d.s, d.nbStripesSoFar) = _
      rw [stripes_append _ _ _ (by omega)]; exact hst
    · show (goCopy d.x d.nx p).take (d.nx + p.length) = _
      rw [hg, List.take_append_of_le_length (by rw [List.length_append, ht]), List.take_of_length_le (by rw [List.length_append, ht]), hbuf, List.drop_append_of_le_length (by omega)]
    · intro hq0 hlt
      have hlt : d.nx + p.length < 64 := hlt
      show (goCopy d.x d.nx p).drop (192 + (d.nx + p.length)) = ((m ++ p).take (256 * q)).drop (256 * q - 64 + (d.nx + p.length))
      have e1 : (goCopy d.x d.nx p).drop (192 + (d.nx + p.length)) = (d.x.drop (192 + d.nx)).drop p.length := by
        rw [hg, List.drop_append, List.drop_of_length_le (by rw [List.length_append, ht]; omega), List.nil_append, List.drop_drop, List.drop_drop, List.length_append, ht]
        congr 1; omega
      rw [e1, hcat hq0 (by omega), List.drop_drop, List.take_append_of_le_length (by omega)]
      congr 1; omega
  rw [if_neg hfit]
  have hnz : d.nx = 0 → 256 < p.length := fun h0 => by omega
  obtain ⟨d1, hd1⟩ : ∃ d1, d1 = { d with len := d.len + BitVec.ofNat 64 p.length } := ⟨_, rfl⟩
  rw [← hd1]
  have r1 : d1.x = d.x ∧ d1.nx = d.nx ∧ d1.s = d.s ∧ d1.nbStripesSoFar = d.nbStripesSoFar ∧ d1.seed = seed ∧ d1.secret = sec ∧ d1.secretLimit = sec.length - 64 ∧
      d1.nbStripesPerBlock = Spec.XXH3.perBlock sec ∧ d1.len = BitVec.ofNat 64 (m ++ p).length := by
    subst hd1; exact ⟨rfl, rfl, rfl, rfl, h.hseed, h.hsec, h.lim, h.per, hlen⟩
  clear hd1
  -- after filling the buffer: `load` more bytes of `p` are consumed
  obtain ⟨load, q1, d2, hf, hload, hlp, hq1, g1, g2, g3, g4, g5, g6, g7, g8, g9, g10, g11⟩ :
      ∃ load q1 d2, d1.fill p = (d2, p.drop load) ∧ (if 0 < d.nx then load = 256 - d.nx else load = 0) ∧ load < p.length ∧ m.length + load = 256 * q1 ∧
        d2.x.length = 256 ∧ d2.seed = seed ∧ d2.secret = sec ∧ d2.secretLimit = sec.length - 64 ∧ d2.nbStripesPerBlock = Spec.XXH3.perBlock sec ∧
        d2.len = BitVec.ofNat 64 (m ++ p).length ∧ d2.s.length = 8 ∧ d2.nbStripesSoFar < Spec.XXH3.perBlock sec ∧
        (d2.s, d2.nbStripesSoFar) = (stripes (m ++ p) (4 * q1)).foldl (Spec.XXH3.stripe sec) (Spec.XXH3.init, 0) ∧
        (0 < q1 → d2.x.drop 192 = ((m ++ p).take (256 * q1)).drop (256 * q1 - 64)) ∧ (0 < q1 ↔ 0 < d.nx) := by
    obtain ⟨rx, rn, rs, ro, r5, r6, r7, r8, r9⟩ := r1
    by_cases hnx : d1.nx > 0
    · have hg : goCopy d1.x d1.nx (p.take (256 - d1.nx)) = m.drop (256 * q) ++ p.take (256 - d.nx) := by
        unfold goCopy
        have hlt : (p.take (256 - d.nx)).length = 256 - d.nx := by rw [List.length_take]; omega
        rw [rx, rn, hbuf, h.x, List.take_take, Nat.min_self, hlt, List.drop_of_length_le (l := d.x) (by rw [h.x]; omega), List.append_nil]
      have hcons : m.drop (256 * q) ++ p.take (256 - d.nx) = ((m ++ p).drop (256 * q)).take 256 := by
        rw [List.drop_append_of_le_length (by omega), List.take_append, List.length_drop, List.take_of_length_le (l := m.drop (256 * q)) (by rw [List.length_drop]; omega)]
        congr 2; omega
      have hl : (m.drop (256 * q) ++ p.take (256 - d.nx)).length = 256 := by
        rw [List.length_append, List.length_drop, List.length_take]; omega
      have hc := consume_eq sec (m.drop (256 * q) ++ p.take (256 - d.nx)) d.nbStripesSoFar d.s h.sl 4 h.so (by omega)
      have hs4 : stripes (m.drop (256 * q) ++ p.take (256 - d.nx)) 4 = stripes ((m ++ p).drop (256 * q)) 4 := by
        rw [hcons, stripes_full _ _ (by rw [← hcons, hl]), stripes_full _ _ (by rw [List.length_drop, List.length_append]; omega), List.take_take]
        rfl
      have hfold : (stripes (m ++ p) (4 * (q + 1))).foldl (Spec.XXH3.stripe sec) (Spec.XXH3.init, 0) =
          (stripes (m.drop (256 * q) ++ p.take (256 - d.nx)) 4).foldl (Spec.XXH3.stripe sec) (d.s, d.nbStripesSoFar) := by
        rw [Nat.mul_succ, stripes_add, List.foldl_append, stripes_append _ _ _ (by omega), ← hst, hs4, show 4 * q * 64 = 256 * q by omega]
      generalize hSt : (stripes (m.drop (256 * q) ++ p.take (256 - d.nx)) 4).foldl (Spec.XXH3.stripe sec) (d.s, d.nbStripesSoFar) = st at *
      have hfill : d1.fill p = ({ d1 with x := m.drop (256 * q) ++ p.take (256 - d.nx), s := st.1, nbStripesSoFar := st.2, nx := 0 }, p.drop (256 - d.nx)) := by
        unfold Digest.fill
        rw [if_pos hnx]
        dsimp only
        rw [hg]
        have : consumeStripes d1.s d1.nbStripesSoFar d1.nbStripesPerBlock (m.drop (256 * q) ++ p.take (256 - d.nx)) 4 d1.secret d1.secretLimit = st := by
          rw [r6, r7, r8, rs, ro]; exact hc.1
        rw [this, rn]
      refine ⟨256 - d.nx, q + 1, _, hfill, by rw [if_pos (by omega)], by omega, by omega, hl, r5, r6, r7, r8, r9, hc.2.1, hc.2.2, ?_, ?_, by omega⟩
      · rw [hfold]
      · intro _
        show (m.drop (256 * q) ++ p.take (256 - d.nx)).drop 192 = _
        rw [hcons, List.drop_take, List.drop_drop, List.drop_take, show 256 * (q + 1) - (256 * (q + 1) - 64) = 256 - 192 by omega, show 256 * (q + 1) - 64 = 256 * q + 192 by omega]
    · have hfill : d1.fill p = (d1, p.drop 0) := by unfold Digest.fill; rw [if_neg hnx]; rfl
      have h0 : d.nx = 0 := by omega
      have hm := hm0 h0
      subst hm
      have hq0 : q = 0 := by rw [List.length_nil] at hq; omega
      subst hq0
      refine ⟨0, 0, d1, hfill, by rw [if_neg (by omega)], by omega, rfl, by rw [rx, h.x], r5, r6, r7, r8, r9, by rw [rs]; exact h.sl, by rw [ro]; exact h.so, ?_, fun h => absurd h (by omega), by omega⟩
      rw [rs, ro, hst]; rfl
  rw [hf]
  dsimp only
  have hdl : (p.drop load).length = p.length - load := List.length_drop ..
  have hdrop : ∀ j, (p.drop load).drop j = (m ++ p).drop (256 * q1 + j) := by
    intro j
    rw [List.drop_drop, List.drop_append, List.drop_of_length_le (l := m) (by omega), List.nil_append]
    congr 1; omega
  by_cases hbig : (p.drop load).length ≥ 256
  · rw [if_pos hbig]
    obtain ⟨k, hk⟩ : ∃ k, k = ((p.drop load).length - 1) / 256 := ⟨_, rfl⟩
    have hloop := loop_eq sec hsec (p.drop load).length d2 (p.drop load) (Nat.le_refl _) g3 g4 g5 g7 g8
    rw [← hk] at hloop
    obtain ⟨l1, l2, l3⟩ := hloop
    rw [l1]
    dsimp only
    have hrest : ((p.drop load).drop (256 * k)).length = p.length - load - 256 * k := by rw [List.length_drop, hdl]
    have hoff : p.length - ((p.drop load).drop (256 * k)).length = load + 256 * k := by rw [hrest]; omega
    rw [hoff]
    have hiff : Panics m.length p.length ↔ load + 256 * k < 64 := by
      unfold Panics
      rw [hdl] at hk hbig
      by_cases hnx : 0 < d.nx
      · rw [if_pos hnx] at hload
        have : 0 < m.length := by omega
        omega
      · rw [if_neg hnx] at hload
        have h0 := hnz (by omega)
        have : m.length = 0 := by rw [hm0 (by omega)]; rfl
        omega
    refine ⟨fun hpan => by rw [if_pos (hiff.1 hpan)], fun hpan => ?_⟩
    rw [if_neg (fun hlt => hpan (hiff.2 hlt))]
    refine ⟨_, rfl, ?_⟩
    have hnl : ¬ load + 256 * k < 64 := fun hlt => hpan (hiff.2 hlt)
    rw [hdl] at hk hbig
    refine store_rep (q := q1 + k) (d := { d2 with s := _, nbStripesSoFar := _, x := goCopy d2.x (256 - 64) (p.drop (load + 256 * k - 64)) }) g2 g3 g4 g5 g6 l2 l3 ?_ (by omega) (by omega) ?_ ?_ ?_ ?_
    · show (goCopy d2.x (256 - 64) _).length = 256
      rw [goCopy_length _ _ _ (by omega), g1]
    · rw [List.length_append, hrest]; omega
    · rw [hdrop]; congr 1; omega
    · show ((stripes (p.drop load) (4 * k)).foldl (Spec.XXH3.stripe sec) (d2.s, d2.nbStripesSoFar)) = _
      rw [g9, ← List.foldl_append, Nat.mul_add, stripes_add, show 4 * q1 * 64 = 256 * q1 + 0 by omega, ← hdrop 0, List.drop_zero]
    · intro _
      show (goCopy d2.x (256 - 64) (p.drop (load + 256 * k - 64))).drop 192 = _
      unfold goCopy
      rw [g1, List.append_assoc, show 256 - 64 = 192 from rfl, List.drop_append, List.drop_of_length_le (by rw [List.length_take]; omega), List.nil_append, List.length_take, g1,
        show 192 - min 192 256 = 0 from rfl, List.drop_zero, List.drop_of_length_le (l := d2.x) (by rw [g1, List.length_drop]; omega), List.append_nil]
      have e : (m ++ p).drop (256 * (q1 + k) - 64) = p.drop (load + 256 * k - 64) := by
        rw [List.drop_append, List.drop_of_length_le (l := m) (by omega), List.nil_append]
        congr 1; omega
      rw [List.drop_take, e]
      congr 1; omega
  · rw [if_neg hbig]
    have hnx : 0 < d.nx := by
      by_cases hnx : 0 < d.nx
      · exact hnx
      · rw [if_neg hnx] at hload
        have := hnz (by omega)
        omega
    rw [if_pos hnx] at hload
    refine ⟨fun hpan => ?_, fun _ => ⟨_, rfl, ?_⟩⟩
    · obtain ⟨a, b, c, e⟩ := hpan
      omega
    · refine store_rep (q := q1) g2 g3 g4 g5 g6 g7 g8 g1 (by omega) (by omega) (by rw [List.length_append, hdl]; omega) ?_ g9 g10
      have := hdrop 0
      rw [List.drop_zero] at this
      exact this

theorem full_eq (m : Bytes) : fullBlocks 64 (m.take (m.length - 1)) = stripes m ((m.length - 1) / 64) := by
  unfold stripes fullBlocks
  rw [List.length_take, Nat.min_eq_left (Nat.sub_le _ _)]
  apply List.map_congr_left
  intro i hi
  rw [List.mem_range] at hi
  rw [List.drop_take, List.take_take, Nat.min_eq_left (by omega)]

theorem hashLong_eq {seed : U64} {sec : Bytes} (hsec : 136 ≤ sec.length) {d : Digest} {m : Bytes} (h : Rep seed sec d m) (hm : 240 < m.length) :
    d.hashLong = Spec.XXH3.longAcc sec m := by
  have hpb : 9 ≤ Spec.XXH3.perBlock sec := by unfold Spec.XXH3.perBlock; omega
  obtain ⟨q, hq, hst, hbuf, hcat⟩ := h.buf
  have hpos := h.pos (by intro e; rw [e] at hm; simp at hm)
  have hle := h.le
  unfold Spec.XXH3.longAcc Digest.hashLong
  dsimp only
  rw [full_eq, show (m.length - 1) / 64 = 4 * q + (d.nx - 1) / 64 by omega, stripes_add, List.foldl_append, ← hst, show 4 * q * 64 = 256 * q by omega, ← hbuf, h.hsec, h.lim, h.per]
  by_cases hn : d.nx ≥ 64
  · rw [if_pos hn]
    have hc := consume_eq sec (d.x.take d.nx) d.nbStripesSoFar d.s h.sl ((d.nx - 1) / 64) h.so (by omega)
    rw [hc.1, acc512_eq _ hc.2.1, hbuf, List.drop_drop, show 256 * q + (d.nx - 64) = m.length - 64 by omega]
  · rw [if_neg hn, show (d.nx - 1) / 64 = 0 by omega, acc512_eq _ h.sl]
    have e1 : goCopy (goCopy (zeros 64) 0 (d.x.drop (d.x.length - (64 - d.nx)))) (64 - d.nx) (d.x.take d.nx) = d.x.drop (192 + d.nx) ++ d.x.take d.nx := by
      have l1 : (d.x.drop (192 + d.nx)).length = 64 - d.nx := by rw [List.length_drop, h.x]; omega
      have l2 : (d.x.take d.nx).length = d.nx := by rw [List.length_take, h.x]; omega
      rw [h.x, show 256 - (64 - d.nx) = 192 + d.nx by omega]
      generalize d.x.drop (192 + d.nx) = u at *
      generalize d.x.take d.nx = v at *
      have e2 : goCopy (zeros 64) 0 u = u ++ zeros d.nx := by
        unfold goCopy
        rw [List.take_zero, List.nil_append, zeros_length, List.take_of_length_le (by omega), Nat.zero_add, l1]
        unfold zeros
        rw [List.drop_replicate]
        congr 2; omega
      rw [e2]
      unfold goCopy
      rw [← l1, List.take_left, List.length_append, zeros_length, List.take_of_length_le (l := v) (by omega), List.drop_of_length_le (l := u ++ zeros d.nx) (by rw [List.length_append, zeros_length]; omega), List.append_nil]
    rw [e1, hcat (by omega) (by omega), hbuf]
    have e3 : (m.take (256 * q)).drop (256 * q - 64 + d.nx) ++ m.drop (256 * q) = m.drop (m.length - 64) := by
      conv_rhs => rw [← List.take_append_drop (256 * q) m]
      rw [List.length_append, List.length_take, List.length_drop, List.drop_append_of_le_length (by rw [List.length_take]; omega)]
      congr 2; omega
    rw [e3]; rfl

theorem len_gt {m : Bytes} (h : m.length < 2 ^ 64) : (BitVec.ofNat 64 m.length > 240#64) ↔ 240 < m.length := by
  show (240#64 < BitVec.ofNat 64 m.length) ↔ _
  rw [BitVec.lt_def, BitVec.toNat_ofNat, BitVec.toNat_ofNat, Nat.mod_eq_of_lt h]

/-- The key of a digest: a seed (with the secret derived from it) or a secret (with seed 0). -/
def KeyOk (seed : U64) (sec : Bytes) (k : Spec.XXH3.Key) : Prop :=
  136 ≤ sec.length ∧ ((k = Spec.XXH3.Key.ofSeed seed ∧ sec = Spec.XXH3.derive seed) ∨ (k = Spec.XXH3.Key.ofSecret sec ∧ seed = 0#64))

theorem bits64_short (m sec : Bytes) (seed : U64) (f : Bytes → U64 → Bytes → U64) (k : Spec.XXH3.Key) (h1 : k.short = sec) (h2 : k.seed = seed) (hm : m.length ≤ 240) :
    Hash_64bits_internal m seed sec f = Spec.XXH3.hash64With Spec.XXH3.avalanche k m := by
  unfold Hash_64bits_internal Spec.XXH3.hash64With
  rw [h1, h2]
  by_cases h : m.length ≤ 16
  · rw [if_pos h, if_pos h, short64_eq]
  · rw [if_neg h, if_neg h, if_pos hm, if_pos hm, mid64_eq _ _ _ (by omega)]

theorem bits128_short (m sec : Bytes) (seed : U64) (f : Bytes → U64 → Bytes → Uint128) (k : Spec.XXH3.Key) (h1 : k.short = sec) (h2 : k.seed = seed) (hm : m.length ≤ 240) :
    Hash_128bits_internal m seed sec f = ofPair (Spec.XXH3.hash128With Spec.XXH3.avalanche k m) := by
  unfold Hash_128bits_internal Spec.XXH3.hash128With
  rw [h1, h2]
  by_cases h : m.length ≤ 16
  · rw [if_pos h, if_pos h, short128_eq]; rfl
  · rw [if_neg h, if_neg h, if_pos hm, if_pos hm, mid128_eq _ _ _ (by omega)]

theorem short_buf {seed : U64} {sec : Bytes} {d : Digest} {m : Bytes} (h : Rep seed sec d m) (hm : m.length ≤ 240) : d.x.take d.nx = m := by
  obtain ⟨q, hq, _, hbuf, _⟩ := h.buf
  rw [hbuf, show 256 * q = 0 by omega, List.drop_zero]

theorem sum64_eq {seed : U64} {sec : Bytes} {k : Spec.XXH3.Key} (hk : KeyOk seed sec k) {d : Digest} {m : Bytes} (h : Rep seed sec d m) (hm : m.length < 2 ^ 64) :
    d.Sum64 = Spec.XXH3.hash64With Spec.XXH3.avalanche k m := by
  obtain ⟨hsec, hk⟩ := hk
  have hlong : k.long = sec := by rcases hk with ⟨rfl, rfl⟩ | ⟨rfl, rfl⟩ <;> rfl
  unfold Digest.Sum64
  rw [h.len]
  by_cases hg : 240 < m.length
  · rw [if_pos ((len_gt hm).2 hg), hashLong_eq hsec h hg, h.hsec, merge_eq]
    unfold Spec.XXH3.hash64With
    rw [if_neg (by omega), if_neg (by omega), hlong]; rfl
  · rw [if_neg (fun e => hg ((len_gt hm).1 e)), short_buf h (by omega), h.hseed, h.hsec, h.lim]
    by_cases h0 : seed = 0#64
    · rw [if_neg (by simp [h0]), List.take_of_length_le (by omega)]
      rcases hk with ⟨rfl, rfl⟩ | ⟨rfl, _⟩
      · subst h0
        exact bits64_short m _ 0#64 _ _ derive_zero.symm rfl (by omega)
      · exact bits64_short m _ 0#64 _ _ rfl rfl (by omega)
    · rw [if_pos h0]
      rcases hk with ⟨rfl, rfl⟩ | ⟨rfl, h1⟩
      · exact bits64_short m _ seed _ _ rfl rfl (by omega)
      · exact absurd h1 h0

theorem sum128_eq {seed : U64} {sec : Bytes} {k : Spec.XXH3.Key} (hk : KeyOk seed sec k) {d : Digest} {m : Bytes} (h : Rep seed sec d m) (hm : m.length < 2 ^ 64) :
    d.Sum128 = ofPair (Spec.XXH3.hash128With Spec.XXH3.avalanche k m) := by
  obtain ⟨hsec, hk⟩ := hk
  have hlong : k.long = sec := by rcases hk with ⟨rfl, rfl⟩ | ⟨rfl, rfl⟩ <;> rfl
  unfold Digest.Sum128
  rw [h.len]
  by_cases hg : 240 < m.length
  · rw [if_pos ((len_gt hm).2 hg), hashLong_eq hsec h hg, h.hsec]
    unfold mergeAccs_128b
    rw [merge_eq, merge_eq]
    unfold Spec.XXH3.hash128With
    rw [if_neg (by omega), if_neg (by omega), hlong, show (Spec.XXH3.longAcc sec m).length = 8 from acc_length _ _ _ _]; rfl
  · rw [if_neg (fun e => hg ((len_gt hm).1 e)), short_buf h (by omega), h.hseed, h.hsec, h.lim]
    by_cases h0 : seed = 0#64
    · rw [if_neg (by simp [h0]), List.take_of_length_le (by omega)]
      rcases hk with ⟨rfl, rfl⟩ | ⟨rfl, _⟩
      · subst h0
        exact bits128_short m _ 0#64 _ _ derive_zero.symm rfl (by omega)
      · exact bits128_short m _ 0#64 _ _ rfl rfl (by omega)
    · rw [if_pos h0]
      rcases hk with ⟨rfl, rfl⟩ | ⟨rfl, h1⟩
      · exact bits128_short m _ seed _ _ rfl rfl (by omega)
      · exact absurd h1 h0

end Verif.XXH3
