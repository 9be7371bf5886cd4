import Verif.Lemmas.StreebogFast
/-
C33: the two Streebog implementations, gost/gost34112012 and streebog.
-/
namespace Verif.Props
open Spec.Streebog (CarrySafe)

/-- The contract: GOST R 34.11-2012 with `size` bytes of output. -/
def streebogSpec (size : Nat) : HashSpec := { H := Spec.Streebog.hash size, size := size, blockSize := 64 }

/-- gost34112012: every history whose messages stay below 2^61 bytes. -/
theorem C33_gost34112012 (size : Nat) (d : Gost12.Digest) (hd : Gost12.new size = some d) :
    RefinesOn (Fits (2 ^ 61)) Gost12.impl d (streebogSpec size) := by
  unfold Gost12.new at hd
  have hs : size = 32 ∨ size = 64 := by
    by_cases h : size ≠ 32 ∧ size ≠ 64
    · rw [if_pos h] at hd; exact absurd hd (Option.some_ne_none d).symm
    · omega
  rw [if_neg (by omega)] at hd
  have hd := Option.some.inj hd
  subst hd
  refine refinesOn_fits_of_sim _ _ _ _ (fun d m => Gost12.Repr size d m) (Gost12.repr_reset rfl) ?_ ?_ ?_ ?_ ?_
  · intro s m p h hl
    exact ⟨_, rfl, Gost12.repr_write h p hl⟩
  · intro s m b h hl
    refine ⟨s, ?_, h⟩
    show (Gost12.checkSum s).map _ = _
    rw [Gost12.repr_sum hs h hl]
    rfl
  · intro s m h; exact Gost12.repr_reset h.sz
  · intro s m h; exact h.sz
  · intro s m h; rfl

/-- `New` of gost34112012 panics exactly for sizes other than 32 and 64. -/
theorem C33_gost34112012_new (size : Nat) : (Gost12.new size).isSome ↔ size = 32 ∨ size = 64 := by
  unfold Gost12.new
  split
  · simp; omega
  · simp; omega

/-- Package streebog: every history in which `Sum` is only asked of messages whose checksum additions never ripple a
carry through a word (`CarrySafe`).  What is missing from C33 is exactly the other messages, see
`C33_streebog_violated`. -/
theorem C33_streebog_partial (hashsize : Nat) (d : Streebog.Digest) (hd : Streebog.new hashsize = some d) :
    RefinesOn (SumsOn (fun ps => ps.flatten.length < 2 ^ 61 ∧ CarrySafe ps.flatten) []) Streebog.impl d (streebogSpec (hashsize / 8)) := by
  unfold Streebog.new at hd
  by_cases hs : hashsize = 256 ∨ hashsize = 512
  · rw [if_pos hs] at hd
    have hd := Option.some.inj hd
    subst hd
    refine refinesOn_sums_of_sim _ _ _ _ (fun d ps => Streebog.Repr hashsize d ps.flatten) (Streebog.repr_reset rfl) ?_ ?_ ?_ ?_ ?_
    · intro s ps p h
      refine ⟨_, rfl, ?_⟩
      rw [List.flatten_append]
      simp only [List.flatten_cons, List.flatten_nil, List.append_nil]
      exact Streebog.repr_write h p
    · intro s ps b h hP
      refine ⟨s, ?_, h⟩
      show some (s, b ++ Streebog.checkSum s) = _
      rw [Streebog.sum_eq hs h hP.1 hP.2]
      rfl
    · intro s ps h; exact Streebog.repr_reset h.sz
    · intro s ps h
      show s.hs / 8 = hashsize / 8
      rw [h.sz]
    · intro s ps h; rfl
  · rw [if_neg hs] at hd; exact absurd hd (Option.some_ne_none d).symm

/-- Whatever the message, however it is cut: the streebog object never panics, and its answers depend only on the message. -/
theorem C33_streebog_chunks (hashsize : Nat) (d : Streebog.Digest) (hd : Streebog.new hashsize = some d) (ps : List Bytes) :
    Streebog.checkSum (ps.foldl Streebog.write d) = Streebog.checkSum (Streebog.write d ps.flatten) := by
  unfold Streebog.new at hd
  by_cases hs : hashsize = 256 ∨ hashsize = 512
  · rw [if_pos hs] at hd
    have hd := Option.some.inj hd
    have h0 : Streebog.Repr hashsize d [] := by subst hd; exact Streebog.repr_reset rfl
    have h1 : ∀ (ps : List Bytes) d m, Streebog.Repr hashsize d m → Streebog.Repr hashsize (ps.foldl Streebog.write d) (m ++ ps.flatten) := by
      intro ps
      induction ps with
      | nil => intro d m h; simpa using h
      | cons p ps ih =>
        intro d m h
        have := ih _ _ (Streebog.repr_write h p)
        rw [List.append_assoc] at this
        simpa using this
    have a := h1 ps d [] h0
    have b := Streebog.repr_write h0 ps.flatten
    have key : ∀ d e m, Streebog.Repr hashsize d m → Streebog.Repr hashsize e m → Streebog.checkSum d = Streebog.checkSum e := by
      intro d e m h k
      unfold Streebog.checkSum
      have hx := Streebog.padX h.buf.xlen (h.buf.nx_lt (by decide)) h.buf.pend
      have kx := Streebog.padX k.buf.xlen (k.buf.nx_lt (by decide)) k.buf.pend
      simp only
      rw [hx, kx, h.sz, k.sz, h.buf.nx_eq, k.buf.nx_eq, h.buf.state, k.buf.state]
    exact key _ _ _ a b
  · rw [if_neg hs] at hd; exact absurd hd (Option.some_ne_none d).symm

/-- Every message shorter than one block is carry-safe, so on those the two packages agree with the standard and each other. -/
theorem C33_short_carrySafe (M : Bytes) (h : M.length < 64) : CarrySafe M := by
  unfold CarrySafe
  have hl : (M ++ [1#8] ++ zeros (63 - M.length % 64)).length = 64 := by simp; omega
  rw [fullBlocks_one 64 _ (by decide) hl]
  refine ⟨?_, True.intro⟩
  rintro ⟨i, _, h1, _⟩
  rw [Nat.zero_mod, Nat.zero_add] at h1
  have := Nat.mod_lt (Spec.Streebog.leNat (M ++ [1#8] ++ zeros (63 - M.length % 64))) (Nat.two_pow_pos (64 * i))
  omega

/-- The two packages, asked for the digest of the same carry-safe message, however each is fed. -/
theorem C33_agree_partial (size : Nat) (d : Streebog.Digest) (e : Gost12.Digest) (hd : Streebog.new (8 * size) = some d) (he : Gost12.new size = some e)
    (ps qs : List Bytes) (hpq : ps.flatten = qs.flatten) (hl : ps.flatten.length < 2 ^ 61) (hc : CarrySafe ps.flatten) (b : Bytes) :
    (Streebog.impl.run d (ps.map Op.write ++ [.sum b])).getLast? = (Gost12.impl.run e (qs.map Op.write ++ [.sum b])).getLast? := by
  have h1 := C33_streebog_partial _ d hd (ps.map Op.write ++ [.sum b]) (by
    suffices h : ∀ (ps acc : List Bytes), (acc ++ ps).flatten.length < 2 ^ 61 ∧ CarrySafe (acc ++ ps).flatten →
        SumsOn (fun ps => ps.flatten.length < 2 ^ 61 ∧ CarrySafe ps.flatten) acc (ps.map Op.write ++ [.sum b]) from h ps [] ⟨hl, hc⟩
    intro ps
    induction ps with
    | nil => intro acc h; rw [List.append_nil] at h; exact ⟨h, True.intro⟩
    | cons p ps ih =>
      intro acc h
      refine ih (acc ++ [p]) ?_
      rw [List.append_assoc]
      exact h)
  have hfit : Fits (2 ^ 61) (qs.map Op.write ++ [.sum b]) := by
    suffices h : ∀ (qs : List Bytes) m, (m ++ qs.flatten).length < 2 ^ 61 → ∀ k, (msgAfter m ((qs.map Op.write ++ [Op.sum b]).take k)).length < 2 ^ 61 from
      h qs [] (by rw [List.nil_append, ← hpq]; exact hl)
    intro qs
    induction qs with
    | nil =>
      intro m h k
      simp only [List.flatten_nil, List.append_nil] at h
      cases k with
      | zero => exact h
      | succ k => cases k <;> exact h
    | cons q qs ih =>
      intro m h k
      cases k with
      | zero =>
        rw [List.length_append] at h
        exact Nat.lt_of_le_of_lt (Nat.le_add_right _ _) h
      | succ k =>
        refine ih (m ++ q) ?_ k
        rw [List.append_assoc]
        simpa using h
  have h2 := C33_gost34112012 _ e he _ hfit
  rw [h1, h2, show 8 * size / 8 = size by omega]
  have h3 : ∀ (S : HashSpec) (ps : List Bytes) m, (S.run m (ps.map Op.write ++ [.sum b])).getLast? = some (.bytes (b ++ S.H (m ++ ps.flatten))) := by
    intro S ps
    induction ps with
    | nil => intro m; simp [HashSpec.run]
    | cons p ps ih =>
      intro m
      have := ih (m ++ p)
      rw [List.append_assoc] at this
      simp only [List.map_cons, List.cons_append, HashSpec.run, List.flatten_cons]
      rw [List.getLast?_cons, this]
      rfl
  rw [h3, h3, hpq]

/-- 64 bytes 0xFF, then 01, then 63 bytes 00: the checksum addition ripples. -/
def rippleMsg : Bytes := List.replicate 64 0xFF#8 ++ [1#8] ++ zeros 63

section evaluate
open Verif.Streebog Verif.Spec.Streebog

/-- The digest of a message by numbers: the checksum is added up by `add`. Only used to evaluate. -/
def evalHash (add : Bytes → List U64 → List U64) (hs : Nat) (M : Bytes) : Bytes :=
  let bs := fullBlocks 64 M
  let pd := restBlock 64 M ++ [1#8] ++ zeros (63 - M.length % 64)
  let st := bs.foldl (fun (st : List Nat × Nat) b => (gFW st.1 b st.2, st.2 + 512)) (nat (ivW hs), 0)
  let S := (bs ++ [pd]).foldl (fun S b => add b S) (List.replicate 8 0)
  let w := gFW (gFW (gFW st.1 pd st.2) (natLE 64 (8 * M.length)) 0) (uint64sToBytes S) 0
  (uint64sToBytes ((words w).drop (8 - hs / 64))).take (hs / 8)

theorem nat_gN {h : List U64} {m : Bytes} {N : U64} (hh : h.length = 8) (hm : m.length = 64) : nat (gN h m N) = gFW (nat h) m N.toNat := gF_eq hh hm

theorem fold_eval (bs : List Bytes) (hb : ∀ b ∈ bs, b.length = 64) : ∀ (c : Chain) (n : Nat), c.s.length = 8 → c.len = BitVec.ofNat 64 n → n + 512 * bs.length < 2 ^ 64 →
    (bs.foldl block c).s.length = 8 ∧
    nat (bs.foldl block c).s = (bs.foldl (fun (st : List Nat × Nat) b => (gFW st.1 b st.2, st.2 + 512)) (nat c.s, n)).1 ∧
    (bs.foldl (fun (st : List Nat × Nat) b => (gFW st.1 b st.2, st.2 + 512)) (nat c.s, n)).2 = n + 512 * bs.length ∧
    (bs.foldl block c).len = BitVec.ofNat 64 (n + 512 * bs.length) ∧
    (bs.foldl block c).S = bs.foldl (fun S b => addm b S) c.S := by
  induction bs with
  | nil => intro c n h1 h2 _; exact ⟨h1, rfl, rfl, h2, rfl⟩
  | cons b bs ih =>
    intro c n h1 h2 h3
    rw [List.length_cons] at h3
    have e : block c b = { s := gN c.s b c.len, len := c.len + 512, S := addm b c.S } := by unfold block transform; rfl
    have hbl := hb b (List.mem_cons_self ..)
    have hg : nat (gN c.s b c.len) = gFW (nat c.s) b n := by
      rw [nat_gN h1 hbl, h2, BitVec.toNat_ofNat, Nat.mod_eq_of_lt (by omega)]
    have := ih (fun x hx => hb x (List.mem_cons_of_mem _ hx)) (block c b) (n + 512) (by rw [e]; exact gN_length _ _ _ h1 hbl)
      (by rw [e]; show c.len + 512 = _; rw [h2, BitVec.ofNat_add]; rfl) (by omega)
    rw [List.foldl_cons, List.foldl_cons, List.foldl_cons, List.length_cons, ← hg]
    rw [show n + 512 * (bs.length + 1) = n + 512 + 512 * bs.length by omega]
    rw [e] at this ⊢
    exact this

/-- The answer of package streebog for any message. -/
theorem checkSum_eval {hs : Nat} (hsz : hs = 256 ∨ hs = 512) {d : Digest} {m : Bytes} (h : Repr hs d m) (hl : m.length < 2 ^ 61) : checkSum d = evalHash addm hs m := by
  rw [checkSum_words h rfl rfl]
  obtain ⟨f1, f2, f3, f4, f5⟩ := fold_eval (fullBlocks 64 m) (fun b hb => mem_fullBlocks_len hb) { s := ivW hs, len := 0, S := List.replicate 8 0 } 0
    (ivW_eq hsz).1 rfl (by rw [fullBlocks_length]; omega)
  have hrl := restBlock_length 64 m
  have hmod := Nat.mod_lt m.length (show 0 < 64 by decide)
  have hpl : (restBlock 64 m ++ [1#8] ++ zeros (63 - m.length % 64)).length = 64 := by simp; omega
  unfold evalHash
  simp only
  rw [fullBlocks_length] at f3 f4
  rw [List.foldl_append, List.foldl_cons, List.foldl_nil, ← f2, f3, ← f5, f4]
  generalize (fullBlocks 64 m).foldl block { s := ivW hs, len := 0, S := List.replicate 8 0 } = c at *
  generalize restBlock 64 m ++ [1#8] ++ zeros (63 - m.length % 64) = pd at *
  have hM : 8 * m.length < 2 ^ 64 := by omega
  have hlen : BitVec.ofNat 64 (0 + 512 * (m.length / 64)) + BitVec.ofNat 64 (m.length % 64) * 8 = BitVec.ofNat 64 (8 * m.length) := by
    rw [show BitVec.ofNat 64 (m.length % 64) * 8 = BitVec.ofNat 64 ((m.length % 64) * 8) by rw [BitVec.ofNat_mul]; rfl, ← BitVec.ofNat_add,
      show 0 + 512 * (m.length / 64) + m.length % 64 * 8 = 8 * m.length by omega]
  have hx1 : goCopy (zeros 64) 0 (le64 (BitVec.ofNat 64 (8 * m.length))) = natLE 64 (8 * m.length) := by
    rw [Gost12.natLE_word _ hM 56]; rfl
  rw [hlen, hx1]
  have hal : (addm pd c.S).length = c.S.length := by
    unfold addm
    exact forLoop_inv (a := 0) (b := 8) (fun _ (st : U64 × List U64) => st.2.length = c.S.length) (Nat.zero_le _) rfl
      (fun j st _ _ h => by simp only [List.length_set]; exact h)
  have hSl : c.S.length = 8 := by
    rw [f5]
    suffices hh : ∀ (bs : List Bytes) (S : List U64), S.length = 8 → (bs.foldl (fun S b => addm b S) S).length = 8 from hh _ _ rfl
    intro bs
    induction bs with
    | nil => intro S h; exact h
    | cons b bs ih =>
      intro S h
      refine ih _ ?_
      unfold addm
      exact forLoop_inv (a := 0) (b := 8) (fun _ (st : U64 × List U64) => st.2.length = 8) (Nat.zero_le _) h
        (fun j st _ _ h => by simp only [List.length_set]; exact h)
  have hb64 : (uint64sToBytes (addm pd c.S)).length = 64 := by rw [toBytes_length, hal, hSl]
  have e1 : goCopy (natLE 64 (8 * m.length)) 0 (uint64sToBytes (addm pd c.S)) = uint64sToBytes (addm pd c.S) := by
    unfold goCopy
    have := Spec.Streebog.natLE_length 64 (8 * m.length)
    rw [List.take_zero, List.nil_append, this, List.take_of_length_le (Nat.le_of_eq hb64), List.drop_of_length_le (by rw [this, hb64]; exact Nat.le_refl _), List.append_nil]
  rw [e1, gN3 f1 hpl (Spec.Streebog.natLE_length _ _) hb64, BitVec.toNat_ofNat, Nat.mod_eq_of_lt (by omega)]

/-- The standard's digest of a message of one, two or three blocks, by numbers: the compression calls in order. -/
def evalSpec (hs : Nat) (bs : List Bytes) (pd : Bytes) (bits : Nat) : Bytes :=
  let st := bs.foldl (fun (st : List Nat × Nat) b => (gFW st.1 b st.2, st.2 + 512)) (nat (ivW hs), 0)
  let sig := (bs ++ [pd]).foldl (fun (s : Nat) b => (s + leNat b) % 256 ^ 64) 0
  let w := gFW (gFW (gFW st.1 pd st.2) (natLE 64 bits) 0) (natLE 64 sig) 0
  (uint64sToBytes (words w)).drop (64 - hs / 8)

theorem foldSpec (bs : List Bytes) (hb : ∀ b ∈ bs, b.length = 64) : ∀ (s : List U64) (n sg : Nat), s.length = 8 → n + 512 * bs.length < 2 ^ 64 →
    ∃ w : List U64, w.length = 8 ∧ nat w = (bs.foldl (fun (st : List Nat × Nat) b => (gFW st.1 b st.2, st.2 + 512)) (nat s, n)).1 ∧
      bs.foldl absorb (uint64sToBytes s, n, sg) = (uint64sToBytes w, n + 512 * bs.length, bs.foldl (fun (s : Nat) b => (s + leNat b) % 256 ^ 64) sg) ∧
      (bs.foldl (fun (st : List Nat × Nat) b => (gFW st.1 b st.2, st.2 + 512)) (nat s, n)).2 = n + 512 * bs.length := by
  induction bs with
  | nil => intro s n sg h _; exact ⟨s, h, rfl, rfl, rfl⟩
  | cons b bs ih =>
    intro s n sg h hn
    rw [List.length_cons] at hn
    have hbl := hb b (List.mem_cons_self ..)
    have hn64 : n < 2 ^ 64 := by omega
    have hn6 : n + 512 + 512 * bs.length < 2 ^ 64 := by omega
    have hn5 := Nat.lt_of_le_of_lt (Nat.le_add_right _ _) hn6
    have hg : nat (gN s b (BitVec.ofNat 64 n)) = gFW (nat s) b n := by
      rw [nat_gN h hbl, BitVec.toNat_ofNat, Nat.mod_eq_of_lt hn64]
    obtain ⟨w, w1, w2, w3, w4⟩ := ih (fun x hx => hb x (List.mem_cons_of_mem _ hx)) (gN s b (BitVec.ofNat 64 n)) (n + 512) ((sg + leNat b) % 256 ^ 64)
      (gN_length _ _ _ h hbl) (by omega)
    refine ⟨w, w1, ?_, ?_, ?_⟩
    · rw [w2, List.foldl_cons, hg]
    · rw [List.foldl_cons, List.foldl_cons, List.length_cons, show n + 512 * (bs.length + 1) = n + 512 + 512 * bs.length by omega, ← w3]
      congr 1
      unfold absorb
      simp only
      rw [specG h hbl hn64, Gost12.mod512 hn5, Gost12.p512]
    · rw [List.foldl_cons, List.length_cons, ← hg, w4]; omega

theorem hash_eval {hs : Nat} (hsz : hs = 256 ∨ hs = 512) (M : Bytes) (hl : M.length < 2 ^ 61) :
    Spec.Streebog.hash (hs / 8) M = evalSpec hs (fullBlocks 64 M) (restBlock 64 M ++ [1#8] ++ zeros (63 - M.length % 64)) (8 * M.length) := by
  have hrl := restBlock_length 64 M
  have hmod := Nat.mod_lt M.length (show 0 < 64 by decide)
  have hpl : (restBlock 64 M ++ [1#8] ++ zeros (63 - M.length % 64)).length = 64 := by simp; omega
  obtain ⟨w, w1, w2, w3, w4⟩ := foldSpec (fullBlocks 64 M) (fun b hb => mem_fullBlocks_len hb) (ivW hs) 0 0 (ivW_eq hsz).1 (by rw [fullBlocks_length]; omega)
  unfold Spec.Streebog.hash evalSpec
  rw [(ivW_eq hsz).2] at w3
  simp only
  rw [show (if hs / 8 = 32 then List.replicate 64 1#8 else zeros 64) = Gost12.iv (hs / 8) from rfl, w3, ← w2, w4, fullBlocks_length, List.foldl_append, List.foldl_cons, List.foldl_nil]
  simp only
  generalize restBlock 64 M ++ [1#8] ++ zeros (63 - M.length % 64) = pd at *
  generalize (fullBlocks 64 M).foldl (fun (s : Nat) b => (s + leNat b) % 256 ^ 64) 0 = sg
  have hN : 0 + 512 * (M.length / 64) < 2 ^ 64 := by omega
  have hB : 0 + 512 * (M.length / 64) + 8 * (M.length % 64) = 8 * M.length := by omega
  have hB64 : 8 * M.length < 2 ^ 64 := by omega
  rw [hB, Gost12.mod512 hB64, ← Gost12.p512]
  have l1 := gN_length w pd (BitVec.ofNat 64 (0 + 512 * (M.length / 64))) w1 hpl
  have hn := Spec.Streebog.natLE_length
  have l2 := gN_length _ (natLE 64 (8 * M.length)) (BitVec.ofNat 64 0) l1 (hn _ _)
  rw [specG w1 hpl hN, specG l1 (hn _ _) (by decide), specG l2 (hn _ _) (by decide)]
  have := gN3 (n := BitVec.ofNat 64 (0 + 512 * (M.length / 64))) w1 hpl (hn 64 (8 * M.length)) (hn 64 ((sg + leNat pd) % 256 ^ 64))
  rw [BitVec.toNat_ofNat, Nat.mod_eq_of_lt hN] at this
  rw [← this]
  rfl


set_option maxRecDepth 100000 in
theorem ripple_differs : evalHash addm 256 rippleMsg ≠
    evalSpec 256 (fullBlocks 64 rippleMsg) (restBlock 64 rippleMsg ++ [1#8] ++ zeros (63 - rippleMsg.length % 64)) (8 * rippleMsg.length) := by decide +kernel

/-- Package streebog does not satisfy the contract: for a two-block message its digest is not that of GOST R 34.11-2012,
and not the one gost34112012 returns. -/
theorem C33_streebog_violated : ∃ d e, Streebog.new 256 = some d ∧ Gost12.new 32 = some e ∧
    ¬ Refines Streebog.impl d (streebogSpec 32) ∧
    Streebog.impl.run d [.write rippleMsg, .sum []] ≠ Gost12.impl.run e [.write rippleMsg, .sum []] := by
  have hl : rippleMsg.length = 128 := by decide +kernel
  have hlt : rippleMsg.length < 2 ^ 61 := by rw [hl]; decide
  have hg := C33_gost34112012 32 _ rfl [.write rippleMsg, .sum []] (by
    intro k
    match k with
    | 0 => exact Nat.two_pow_pos 61
    | 1 => exact hlt
    | k + 2 => rw [List.take_of_length_le (by simp)]; exact hlt)
  have hs : ∀ d : Digest, Repr 256 d [] → Streebog.impl.run d [.write rippleMsg, .sum []] ≠ (streebogSpec 32).run [] [.write rippleMsg, .sum []] := by
    intro d hd h
    have hr := repr_write hd rippleMsg
    have h2 : checkSum (Streebog.write d rippleMsg) = Spec.Streebog.hash 32 rippleMsg := by
      simp only [HashImpl.run, HashSpec.run, Streebog.impl, List.nil_append] at h
      simp only [List.cons.injEq, Out.bytes.injEq, streebogSpec, and_true, true_and] at h
      exact h
    rw [checkSum_eval (Or.inl rfl) hr hlt, show 32 = 256 / 8 from rfl, hash_eval (Or.inl rfl) _ hlt] at h2
    exact ripple_differs h2
  refine ⟨_, _, rfl, rfl, ?_, ?_⟩
  · exact not_refines _ (hs _ (repr_reset rfl))
  · rw [hg]; exact hs _ (repr_reset rfl)

/-! Tests: digests from RFC 6986 and from the repository. -/
set_option maxRecDepth 100000 in
example : evalSpec 256 [] ([1#8] ++ zeros 63) 0 = hex "3f539a213e97c802cc229d474c6aa32a825a360b2a933a949fd925208d9ce1bb" := by decide +kernel
set_option maxRecDepth 100000 in
example : evalSpec 256 [] (ascii "012345678901234567890123456789012345678901234567890123456789012" ++ [1#8]) 504 =
    hex "9d151eefd8590b89daa6ba6cb74af9275dd051026bb149a452fd84e5e57b5500" := by decide +kernel
set_option maxRecDepth 100000 in
example : evalHash addm 512 (ascii "nonce-asdfg") = hex "56d6dd148d3df5947b54f0a0fb5e5b0234680cd7b4614bf3005c86fffb45257419b3133c39e551347cd3ad26850bd9513877ee2b708829f3f8f902377720655f" := by
  decide +kernel
end evaluate

/-- The hypotheses are met by a message of more than one block. -/
example : CarrySafe (zeros 100) := by
  unfold CarrySafe
  have e : fullBlocks 64 (zeros 100 ++ [1#8] ++ zeros (63 - (zeros 100).length % 64)) = [zeros 64, zeros 36 ++ [1#8] ++ zeros 27] := by decide +kernel
  rw [e]
  have z : Spec.Streebog.leNat (zeros 64) = 0 := by decide +kernel
  have nr : ∀ y, ¬ Spec.Streebog.Ripple 0 y := by
    rintro y ⟨i, _, h1, _⟩
    rw [Nat.zero_mod, Nat.zero_add] at h1
    have := Nat.mod_lt y (Nat.two_pow_pos (64 * i))
    omega
  refine ⟨nr _, ?_⟩
  rw [z, Nat.zero_add, Nat.zero_mod]
  exact ⟨nr _, True.intro⟩

end Verif.Props
