import Verif.Lemmas.Skein512
import Verif.Props.C39_Skein
/-
C39 and C59: package skein512.
-/
namespace Verif.Props
open Verif.Threefish Verif.Skein512
open Verif.Skein (T1)

/-- The optional arguments, in the order of the standard. -/
def args512 (a : Args) : List (Nat × Bytes) :=
  (a.person.toList.map fun v => (8, v)) ++ (a.publicKey.toList.map fun v => (12, v)) ++
  (a.keyId.toList.map fun v => (16, v)) ++ (a.nonce.toList.map fun v => (20, v))

/-- All arguments are shorter than 2^64 bytes (as every Go slice). -/
def Args512Fit (a : Args) : Prop :=
  ∀ v, a.key = some v ∨ a.person = some v ∨ a.publicKey = some v ∨ a.keyId = some v ∨ a.nonce = some v → v.length < 2 ^ 64

/-- Between two stages of `New`. -/
structure Idle512 (s : Hash) (G : List U64) (outLen : U64) (noMsg : Bool) : Prop where
  x : s.x.length = 64
  nx : s.nx = 0
  chain : s.c.hVal = G
  len : G.length = 8
  outLen : s.outLen = outLen
  noMsg : s.noMsg = noMsg

theorem repr512_nil {s : Hash} (hx : s.x.length = 64) (hn : s.nx = 0) (c : Skein.Chain) (hc : s.c = c) : Skein512.Repr c s [] := by
  refine ⟨?_, ⟨hx, ?_, ?_⟩⟩
  · rw [initBlocks_le (by decide) (by simp)]; exact hc
  · rw [lastBlock_le (by decide) (by simp)]; exact hn
  · rw [lastBlock_le (by decide) (by simp), hn]; rfl

theorem addArg512 {s : Hash} {G : List U64} {o : U64} {b : Bool} (h : Idle512 s G o b) (ty : Nat) (ht : ty < 64) (v : Bytes)
    (hv : v.length < 2 ^ 64) : Idle512 (addArg (BitVec.ofNat 64 ty) v s) (Spec.Skein.ubi 8 G v ty) o b := by
  unfold addArg
  have e : (BitVec.ofNat 64 ty <<< 56) ||| firstBlockFlag = T1 ty true false := by
    unfold T1
    rw [if_pos rfl, if_neg (by decide), BitVec.or_zero]; rfl
  rw [e]
  have hr : Skein512.Repr ⟨G, 0#64, T1 ty true false⟩ { s with c := { s.c with t0 := 0, t1 := T1 ty true false } } [] :=
    repr512_nil (s := { s with c := { s.c with t0 := 0, t1 := T1 ty true false } }) h.x h.nx _ (by dsimp only; rw [h.chain]; rfl)
  have hu := update_repr hr v
  obtain ⟨f1, f2, f3⟩ := update_fields { s with c := { s.c with t0 := 0, t1 := T1 ty true false } } v
  obtain ⟨a, b', c, d, e', -⟩ := hashLastBlock_spec G h.len ty ht hu hv
  exact ⟨b', c, a, Skein.ubi_length 8 (by decide) _ _ _, by rw [e', f2]; exact h.outLen, by rw [d, f1]; exact h.noMsg⟩

theorem optArg512 {s : Hash} {G : List U64} {o : U64} {b : Bool} (h : Idle512 s G o b) (ty : Nat) (ht : ty < 64) (v : Option Bytes)
    (hv : ∀ w, v = some w → w.length < 2 ^ 64) : Idle512 (optArg (BitVec.ofNat 64 ty) v s)
      ((v.toList.map fun w => (ty, w)).foldl (fun G a => Spec.Skein.ubi 8 G a.2 a.1) G) o b := by
  cases v with
  | none => exact h
  | some w => exact addArg512 h ty ht w (hv w rfl)

theorem blank512 (o : U64) : Idle512 (blank o) (List.replicate 8 0#64) o false := ⟨rfl, rfl, rfl, rfl, rfl, rfl⟩

theorem config512 {s : Hash} {G : List U64} {o : U64} {b : Bool} (h : Idle512 s G o b) :
    Idle512 (addConfig (o * 8) s) (Spec.Skein.ubi 8 G (Spec.Skein.config o.toNat) 4) o b := by
  have e : ascii "SHA3" ++ [1, 0, 0, 0] ++ le64 (o * 8) ++ zeros 16 = Spec.Skein.config o.toNat := by
    unfold Spec.Skein.config
    have : (o * 8 : U64) = BitVec.ofNat 64 (8 * o.toNat) := by
      apply BitVec.eq_of_toNat_eq
      rw [BitVec.toNat_mul, BitVec.toNat_ofNat, Nat.mul_comm]; rfl
    rw [this]
    rfl
  unfold addConfig
  rw [e]
  exact addArg512 h 4 (by decide) _ (by simp [Spec.Skein.config, le64])

set_option maxRecDepth 100000 in
theorem iv224_eq : Spec.Skein.init 8 28 none [] = Skein512.iv224 := by rw [init8]; decide +kernel

theorem newConf512 (o : U64) (key : Option Bytes) (hk : ∀ w, key = some w → w.length < 2 ^ 64) :
    Idle512 (newConf o key) (Spec.Skein.init 8 o.toNat key []) o false := by
  unfold newConf
  cases key with
  | some k => exact config512 (addArg512 (blank512 o) 0 (by decide) k (hk k rfl))
  | none =>
    dsimp only
    split
    · next h => subst h; exact ⟨rfl, rfl, iv224_eq.symm, by rw [show (28 : U64).toNat = 28 from rfl, iv224_eq]; rfl, rfl, rfl⟩
    · split
      · next h => subst h; exact ⟨rfl, rfl, iv256_eq.symm, by rw [show (32 : U64).toNat = 32 from rfl, iv256_eq]; rfl, rfl, rfl⟩
      · split
        · next h => subst h; exact ⟨rfl, rfl, iv384_eq.symm, by rw [show (48 : U64).toNat = 48 from rfl, iv384_eq]; rfl, rfl, rfl⟩
        · split
          · next h => subst h; exact ⟨rfl, rfl, iv512_eq.symm, by rw [show (64 : U64).toNat = 64 from rfl, iv512_eq]; rfl, rfl, rfl⟩
          · exact config512 (blank512 o)

theorem init_foldl (n size : Nat) (key : Option Bytes) (args : List (Nat × Bytes)) : Spec.Skein.init n size key args =
    args.foldl (fun G a => Spec.Skein.ubi n G a.2 a.1) (Spec.Skein.init n size key []) := rfl

/-- What `New` leaves behind. -/
theorem new512_spec (o : U64) (a : Args) (ha : Args512Fit a) :
    (new o a).ik = Spec.Skein.init 8 o.toNat a.key (args512 a) ∧ (new o a).ik.length = 8 ∧
    (new o a).c = ⟨(new o a).ik, 0#64, T1 48 true false⟩ ∧ (new o a).x.length = 64 ∧ (new o a).nx = 0 ∧
    (new o a).outLen = o ∧ (new o a).noMsg = a.noMsg := by
  have h0 := newConf512 o a.key (fun w hw => ha w (Or.inl hw))
  have h1 : Idle512 { newConf o a.key with noMsg := a.noMsg } _ o a.noMsg := ⟨h0.x, h0.nx, h0.chain, h0.len, h0.outLen, rfl⟩
  have h2 := optArg512 h1 8 (by decide) a.person (fun w hw => ha w (Or.inr (Or.inl hw)))
  have h3 := optArg512 h2 12 (by decide) a.publicKey (fun w hw => ha w (Or.inr (Or.inr (Or.inl hw))))
  have h4 := optArg512 h3 16 (by decide) a.keyId (fun w hw => ha w (Or.inr (Or.inr (Or.inr (Or.inl hw)))))
  have h5 := optArg512 h4 20 (by decide) a.nonce (fun w hw => ha w (Or.inr (Or.inr (Or.inr (Or.inr hw)))))
  have hi : (new o a).ik = Spec.Skein.init 8 o.toNat a.key (args512 a) := by
    rw [init_foldl]
    unfold args512
    rw [List.foldl_append, List.foldl_append, List.foldl_append]
    exact h5.chain
  refine ⟨hi, ?_, ?_, h5.x, h5.nx, h5.outLen, h5.noMsg⟩
  · have := h5.len
    rw [← h5.chain] at this
    exact this
  · rfl

/-- The contract of the objects of package skein512 that take a message: Skein-512 with the given
output length, key and arguments, for messages below 2^64 bytes. -/
theorem C39_skein512 (outLen : U64) (a : Args) (ha : Args512Fit a) (hm : a.noMsg = false) :
    RefinesOn (Fits (2 ^ 64)) Skein512.impl (new outLen a) (skeinSpec 8 outLen.toNat a.key (args512 a)) := by
  obtain ⟨h1, h2, h3, h4, h5, h6, h7⟩ := new512_spec outLen a ha
  refine refinesOn_fits_of_sim (2 ^ 64) _ _ _
    (fun s m => s.ik = (new outLen a).ik ∧ s.outLen = outLen ∧ s.noMsg = false ∧ Skein512.Repr ⟨(new outLen a).ik, 0#64, T1 48 true false⟩ s m)
    ⟨rfl, h6, h7.trans hm, repr512_nil h4 h5 _ h3⟩ ?_ ?_ ?_ ?_ ?_
  · rintro s m p ⟨a1, a2, a3, a4⟩ -
    obtain ⟨f1, f2, f3⟩ := update_fields s p
    refine ⟨update s p, ?_, f3.trans a1, f2.trans a2, f1.trans a3, update_repr a4 p⟩
    show (if s.noMsg then none else some (update s p, p.length)) = _
    rw [a3]; rfl
  · rintro s m b ⟨a1, a2, a3, a4⟩ hl
    refine ⟨s, ?_, a1, a2, a3, a4⟩
    show some (s, b ++ Skein512.checkSum s) = some (s, b ++ Spec.Skein.skein 8 outLen.toNat a.key (args512 a) m)
    congr 3
    unfold Skein512.checkSum Spec.Skein.skein
    obtain ⟨b1, -, -, -, b5, -⟩ := hashLastBlock_spec _ h2 48 (by decide) a4 hl
    rw [a3, if_neg (by decide)]
    dsimp only
    rw [b1, b5, a2, h1]
    exact appendOutput_spec _ (Skein.ubi_length 8 (by decide) _ _ _) _
  · rintro s m ⟨a1, a2, a3, a4⟩
    refine ⟨a1, a2, a3, repr512_nil (s := Skein512.reset s) a4.buf.xlen rfl _ ?_⟩
    show (⟨s.ik, 0#64, (48#64 <<< 56) ||| firstBlockFlag⟩ : Skein.Chain) = _
    rw [a1]
    rfl
  · rintro s m ⟨-, a2, -⟩
    show s.outLen.toNat = outLen.toNat
    rw [a2]
  · intros; rfl

/-- Objects configured with `NoMsg` refuse every `Write` and output the stream of the chaining value
before the message stage. -/
theorem C39_skein512_nomsg (outLen : U64) (a : Args) (ha : Args512Fit a) (hm : a.noMsg = true) (p b : Bytes) :
    Skein512.impl.write (new outLen a) p = none ∧
    Skein512.impl.sum (new outLen a) b =
      some (new outLen a, b ++ Spec.Skein.output 8 (Spec.Skein.init 8 outLen.toNat a.key (args512 a)) outLen.toNat) := by
  obtain ⟨h1, h2, h3, h4, h5, h6, h7⟩ := new512_spec outLen a ha
  constructor
  · show (if (new outLen a).noMsg then none else _) = none
    rw [h7, hm]; rfl
  · show some (_, b ++ Skein512.checkSum _) = _
    congr 3
    unfold Skein512.checkSum
    rw [h7, hm, if_pos rfl]
    dsimp only
    rw [h3, h6, h1]
    dsimp only
    rw [h1] at h2
    exact appendOutput_spec _ h2 _

/-! ### C59: the output reader -/

/-- A history of `Read`s of the given lengths: the concatenation of what they return. -/
def readAll (r : Reader) : List Nat → Bytes
  | [] => []
  | n :: ns => (Skein512.read r n).2 ++ readAll (Skein512.read r n).1 ns

/-- A history of `XORKeyStream`s. -/
def xorAll (r : Reader) : List Bytes → Bytes
  | [] => []
  | p :: ps => (xorKeyStream r p).2 ++ xorAll (xorKeyStream r p).1 ps

theorem readAll_seg {G : List U64} (hG : G.length = 8) : ∀ (ns : List Nat) (r : Reader) (pos : Nat), RRepr G r pos →
    readAll r ns = seg G pos ns.sum := by
  intro ns
  induction ns with
  | nil => intros; rfl
  | cons n ns ih =>
    intro r pos h
    obtain ⟨a, b⟩ := read_spec hG h n
    rw [readAll, a, ih _ _ b, seg_append, List.sum_cons]

theorem xorAll_seg {G : List U64} (hG : G.length = 8) : ∀ (ps : List Bytes) (r : Reader) (pos : Nat), RRepr G r pos →
    xorAll r ps = List.zipWith (· ^^^ ·) ps.flatten (seg G pos ps.flatten.length) := by
  intro ps
  induction ps with
  | nil => intros; rfl
  | cons p ps ih =>
    intro r pos h
    obtain ⟨a, b⟩ := read_spec hG h p.length
    rw [xorAll, xorKeyStream_eq r p (by rw [h.k, hG]) h.xlen]
    dsimp only
    rw [a, ih _ _ b, List.flatten_cons, List.length_append, ← seg_append, List.zipWith_append (by rw [seg_length])]

/-- The object that `OutputReader` works on: after writing `m` (or without a message). -/
theorem newReader_repr (o : U64) (a : Args) (ha : Args512Fit a) :
    (∀ s m, a.noMsg = false → m.length < 2 ^ 64 → s.noMsg = false → Skein512.Repr ⟨(new o a).ik, 0#64, T1 48 true false⟩ s m →
      RRepr (Spec.Skein.ubi 8 (Spec.Skein.init 8 o.toNat a.key (args512 a)) m 48) (newReader s) 0) ∧
    (a.noMsg = true → RRepr (Spec.Skein.init 8 o.toNat a.key (args512 a)) (newReader (new o a)) 0) := by
  obtain ⟨h1, h2, h3, h4, h5, h6, h7⟩ := new512_spec o a ha
  constructor
  · intro s m hm hl hs hr
    obtain ⟨b1, b2, -⟩ := hashLastBlock_spec _ h2 48 (by decide) hr hl
    unfold newReader
    rw [hs, if_neg (by decide)]
    dsimp only
    refine ⟨by dsimp only; rw [b1, h1], b2, Nat.le_refl _, 0, rfl, rfl, ?_⟩
    dsimp only
    rw [List.drop_of_length_le (by omega)]
    rfl
  · intro hm
    unfold newReader
    rw [h7, hm, if_pos rfl]
    dsimp only
    refine ⟨by dsimp only; rw [h3, h1], h4, Nat.le_refl _, 0, rfl, rfl, ?_⟩
    dsimp only
    rw [List.drop_of_length_le (by omega)]
    rfl

/-- Writing pieces. -/
def writeAll512 (s : Hash) (ps : List Bytes) : Hash := ps.foldl update s

/-- C59, reading: whatever the division into `Write`s before and into `Read`s after, `OutputReader`
delivers the consecutive bytes of the Skein output of the message. -/
theorem C59_read (outLen : U64) (a : Args) (ha : Args512Fit a) (hm : a.noMsg = false) (ps : List Bytes)
    (hp : ps.flatten.length < 2 ^ 64) (ns : List Nat) :
    readAll (newReader (writeAll512 (new outLen a) ps)) ns =
      Spec.Skein.output 8 (Spec.Skein.ubi 8 (Spec.Skein.init 8 outLen.toNat a.key (args512 a)) ps.flatten 48) ns.sum := by
  obtain ⟨h1, h2, h3, h4, h5, h6, h7⟩ := new512_spec outLen a ha
  have hw : ∀ (ps : List Bytes) s m, s.noMsg = false → Skein512.Repr ⟨(new outLen a).ik, 0#64, T1 48 true false⟩ s m →
      (writeAll512 s ps).noMsg = false ∧ Skein512.Repr ⟨(new outLen a).ik, 0#64, T1 48 true false⟩ (writeAll512 s ps) (m ++ ps.flatten) := by
    intro ps
    induction ps with
    | nil => intro s m h h'; rw [List.flatten_nil, List.append_nil]; exact ⟨h, h'⟩
    | cons p ps ih =>
      intro s m h h'
      rw [List.flatten_cons, ← List.append_assoc]
      exact ih _ _ ((update_fields s p).1.trans h) (update_repr h' p)
  obtain ⟨w1, w2⟩ := hw ps _ [] (h7.trans hm) (repr512_nil h4 h5 _ h3)
  rw [readAll_seg (Skein.ubi_length 8 (by decide) _ _ _) ns _ 0 ((newReader_repr outLen a ha).1 _ _ hm hp w1 w2),
    output_seg _ (Skein.ubi_length 8 (by decide) _ _ _)]

/-- C59, the stream cipher of `NewStream`: for every division of the data, `XORKeyStream` XORs it with
the first bytes of the Skein output for that key and nonce. -/
theorem C59_stream (key nonce : Option Bytes) (hk : ∀ v, key = some v ∨ nonce = some v → v.length < 2 ^ 64) (ps : List Bytes) :
    xorAll (newStream key nonce) ps = List.zipWith (· ^^^ ·) ps.flatten
      (Spec.Skein.output 8 (Spec.Skein.init 8 (2 ^ 61 - 1) key (nonce.toList.map fun v => (20, v))) ps.flatten.length) := by
  have ha : Args512Fit { key := key, nonce := nonce, noMsg := true } := by
    intro v hv
    rcases hv with h | h | h | h | h
    · exact hk v (Or.inl h)
    · cases h
    · cases h
    · cases h
    · exact hk v (Or.inr h)
  have hr := (newReader_repr 0x1FFFFFFFFFFFFFFF#64 { key := key, nonce := nonce, noMsg := true } ha).2 rfl
  obtain ⟨h1, h2, -⟩ := new512_spec 0x1FFFFFFFFFFFFFFF#64 { key := key, nonce := nonce, noMsg := true } ha
  rw [h1] at h2
  have := xorAll_seg h2 ps _ 0 hr
  unfold newStream
  rw [this, ← output_seg _ h2]
  rfl

/-- C59, decryption: a second stream with the same key and nonce restores the data, however both
sides divide it. -/
theorem C59_roundtrip (key nonce : Option Bytes) (hk : ∀ v, key = some v ∨ nonce = some v → v.length < 2 ^ 64) (ps qs : List Bytes)
    (h : qs.flatten = xorAll (newStream key nonce) ps) : xorAll (newStream key nonce) qs = ps.flatten := by
  rw [C59_stream key nonce hk, h, C59_stream key nonce hk ps]
  generalize Spec.Skein.init 8 (2 ^ 61 - 1) key (nonce.toList.map fun v => (20, v)) = G
  have hl : ∀ n, n ≤ (Spec.Skein.output 8 G n).length → True := fun _ _ => trivial
  generalize hks : Spec.Skein.output 8 G ps.flatten.length = ks
  have hkl : ks.length = ps.flatten.length := by
    rw [← hks]
    unfold Spec.Skein.output
    have : ∀ j, ((List.range j).flatMap fun i => (Spec.Skein.ubi 8 G (le64 (BitVec.ofNat 64 i)) 63).flatMap le64).length = 64 * j := by
      intro j
      induction j with
      | zero => rfl
      | succ j ih =>
        rw [List.range_succ, List.flatMap_append, List.length_append, ih, List.flatMap_singleton, ubi_flat_length]; omega
    rw [List.length_take, this]
    have := Nat.div_add_mod (ps.flatten.length + 8 * 8 - 1) (8 * 8)
    omega
  rw [List.length_zipWith, hkl, Nat.min_self, hks]
  clear hks hl h
  generalize ps.flatten = p at *
  clear ps qs
  induction p generalizing ks with
  | nil => rfl
  | cons x p ih =>
    cases ks with
    | nil => simp at hkl
    | cons y ks =>
      rw [List.zipWith_cons_cons, List.zipWith_cons_cons, ih ks (by simpa using hkl)]
      congr 1
      rw [BitVec.xor_assoc, BitVec.xor_self, BitVec.xor_zero]

-- the hypotheses can be met: a keyed object with a nonce
example : Args512Fit { key := some [1, 2], nonce := some [] } := by
  intro v hv
  rcases hv with h | h | h | h | h <;> cases h <;> decide

end Verif.Props
