import Verif.Lemmas.PMACWrite
import Verif.HistAuto
import Verif.Props.C18_CMAC
/-
C19: package pmac.
-/
namespace Verif.Props
open Verif.PMAC
open Verif.Spec (bxor)

theorem C19_pmac_new (bs : Nat) (E : Bytes → Bytes) (t : Int) :
    (PMAC.newWithTagSize bs E t).isSome ↔ (bs = 8 ∨ bs = 16 ∨ bs = 32 ∨ bs = 64 ∨ bs = 128) ∧ 1 ≤ t ∧ t ≤ bs := by
  unfold PMAC.newWithTagSize
  split
  · simp; omega
  · split
    · simp; omega
    · simp; omega

/-- The calls for which the object works: no `Write` or `Sum` between a `Sum` and the next `Reset`, and at most
`2^(2 bs - 1)` blocks (2^31 for AES).  The summary: was there a `Sum`, and how many bytes, since the last `Reset`. -/
def pmacOk (bs : Nat) : Bool × Nat → Op → Prop
  | (summed, n), .write p => summed = false ∧ n + p.length ≤ bs * 2 ^ min (2 * bs - 1) 63
  | (summed, _), .sum _ => summed = false
  | _, _ => True
def pmacNext : Bool × Nat → Op → Bool × Nat
  | (s, n), .write p => (s, n + p.length)
  | (_, n), .sum _ => (true, n)
  | _, .reset => (false, 0)
  | t, _ => t

theorem new_rep {bs : Nat} {E : Bytes → Bytes} (hE : ∀ b, b.length = bs → (E b).length = bs) {t : Int} {d : Pmac}
    (hd : PMAC.newWithTagSize bs E t = some d) : Ctx.Ok ⟨bs, E, t.toNat⟩ ∧ PMAC.Rep ⟨bs, E, t.toNat⟩ d [] := by
  unfold PMAC.newWithTagSize at hd
  split at hd
  · cases hd
  split at hd
  · rename_i hbs
    have hpos : 0 < bs := by omega
    have hc : Ctx.Ok ⟨bs, E, t.toNat⟩ := ⟨hpos, hE⟩
    refine ⟨hc, ?_⟩
    have hL := L_length hc
    dsimp only at hd hL
    have hd' := Option.some.inj hd
    have h1 : initBlocks bs [] = [] := initBlocks_le hpos (by simp)
    have h2 : lastBlock bs [] = [] := lastBlock_le hpos (by simp)
    have hinv : lInvOf ((table (2 * bs - 1) (E (zeros bs))).getD 0 []) = Spec.half 0x87 (E (zeros bs)) := by
      rw [List.getD_eq_getElem?_getD, table_get _ _ (by rw [show (E (zeros bs)).length = bs from hL]; exact hpos), if_pos (by omega)]
      exact lInv_eq (E (zeros bs)) (by rw [show (E (zeros bs)).length = bs from hL]; exact hpos)
    subst hd'
    refine ⟨?_, by rw [h2]; rfl, by rw [h2]; rfl⟩
    rw [h1]
    exact ⟨⟨rfl, rfl, rfl, hinv, rfl, zeros_length _, zeros_length _, zeros_length _⟩, rfl, rfl, rfl⟩
  · cases hd

/-- For every block size and cipher, and every history in which a `Sum` is followed by `Reset` before the next `Write`
or `Sum`, the object computes PMAC over the field with constant 0x87. -/
theorem C19_pmac_contract_partial (bs : Nat) (E : Bytes → Bytes) (hE : ∀ b, b.length = bs → (E b).length = bs) (t : Int) (d : Pmac)
    (hd : PMAC.newWithTagSize bs E t = some d) :
    RefinesOn (Permits (pmacOk bs) pmacNext (false, 0)) PMAC.impl d { H := Spec.pmac 0x87 bs E t.toNat, size := t.toNat, blockSize := bs } := by
  obtain ⟨hc, h0⟩ := new_rep hE hd
  refine refinesOn_permits_of_sim (pmacOk bs) pmacNext (false, 0) PMAC.impl d _
    (fun s τ m => PMAC.Base ⟨bs, E, t.toNat⟩ s ∧ (τ.1 = false → PMAC.Rep ⟨bs, E, t.toNat⟩ s m ∧ m.length = τ.2)) ⟨h0.done.toBase, fun _ => ⟨h0, rfl⟩⟩ ?_ ?_ ?_ ?_ ?_
  · rintro s ⟨b, n⟩ m p ⟨_, h⟩ ⟨hok, hlen⟩
    obtain ⟨hr, hn⟩ := h hok
    obtain ⟨s', e, h'⟩ := PMAC.write_rep hc hr p (by
      show (m ++ p).length ≤ bs * 2 ^ min (2 * bs - 1) 63
      rw [List.length_append]; dsimp only at hn; omega)
    refine ⟨s', e, h'.done.toBase, fun _ => ⟨h', ?_⟩⟩
    show (m ++ p).length = n + p.length
    rw [List.length_append]; dsimp only at hn; omega
  · rintro s ⟨b, n⟩ m q ⟨hb, h⟩ hok
    obtain ⟨hr, hn⟩ := h hok
    have hl := PMAC.checkSum_length hc hr
    have ht := hb.tag
    dsimp only at ht
    refine ⟨{ s with digest := s.checkSum }, ?_, ⟨hb.bs, hb.E, hb.l, hb.lInv, hb.tag, hb.bufl, hb.offl, hl⟩, fun h => by cases h⟩
    show some (_, q ++ s.checkSum.take s.tagsize) = some (_, q ++ Spec.pmac 0x87 bs E t.toNat m)
    rw [PMAC.checkSum_eq hc hr, ht]
    unfold Spec.pmac
    rw [Spec.cut_eq bs hc.pos]
    rfl
  · rintro s ⟨b, n⟩ m ⟨hb, _⟩ _
    have := PMAC.reset_rep hc hb
    exact ⟨this.done.toBase, fun _ => ⟨this, rfl⟩⟩
  · rintro s ⟨b, n⟩ m ⟨hb, h⟩; exact ⟨hb.tag, fun _ => ⟨hb, h⟩⟩
  · rintro s ⟨b, n⟩ m ⟨hb, h⟩; exact ⟨hb.bs, fun _ => ⟨hb, h⟩⟩

/-- The case PMAC is defined for: 128-bit blocks, any cipher, any tag size, up to 32 GiB between resets. -/
theorem C19_pmac_partial (E : Bytes → Bytes) (hE : ∀ b, b.length = 16 → (E b).length = 16) (t : Nat) (h1 : 1 ≤ t) (h2 : t ≤ 16) :
    ∃ d, PMAC.newWithTagSize 16 E t = some d ∧
      RefinesOn (Permits (pmacOk 16) pmacNext (false, 0)) PMAC.impl d { H := Spec.pmac (Spec.gfPoly 16) 16 E t, size := t, blockSize := 16 } := by
  obtain ⟨d, hd⟩ := Option.isSome_iff_exists.mp ((C19_pmac_new 16 E t).mpr ⟨by omega, by omega, by omega⟩)
  exact ⟨d, hd, C19_pmac_contract_partial 16 E hE t d hd⟩

/-- The one-shot `Sum`/`Verify` of verify.go (128-bit blocks, messages up to 32 GiB). -/
theorem C19_pmac_verify (E : Bytes → Bytes) (hE : ∀ b, b.length = 16 → (E b).length = 16) (t : Int) (mac msg : Bytes) (hm : msg.length ≤ 2 ^ 35) :
    ∃ r, PMAC.verify mac msg 16 E t = some r ∧ (r = true ↔ (1 ≤ t ∧ t ≤ 16) ∧ mac = Spec.pmac 0x87 16 E t.toNat msg) := by
  unfold PMAC.verify PMAC.sum
  cases hd : PMAC.newWithTagSize 16 E t with
  | none =>
    refine ⟨false, rfl, ?_⟩
    have := C19_pmac_new 16 E t
    rw [hd] at this
    simp only [Bool.false_eq_true, false_iff]
    intro h
    have := this.mpr ⟨by omega, h.1⟩
    cases this
  | some d =>
    have hn := (C19_pmac_new 16 E t).mp (by rw [hd]; rfl)
    obtain ⟨hc, h0⟩ := new_rep hE hd
    obtain ⟨d', e, h'⟩ := PMAC.write_rep hc h0 msg (by
      show msg.length ≤ 16 * 2 ^ min (2 * 16 - 1) 63
      refine Nat.le_trans hm (by decide))
    dsimp only
    rw [e]
    refine ⟨mac == d'.checkSum.take d.tagsize, rfl, ?_⟩
    have ht := h0.done.tag
    dsimp only at ht
    have : d'.checkSum.take d.tagsize = Spec.pmac 0x87 16 E t.toNat msg := by
      rw [PMAC.checkSum_eq hc h', ht]
      unfold Spec.pmac
      rw [Spec.cut_eq 16 (by omega)]
      rfl
    rw [beq_iff_eq, this]
    exact ⟨fun h => ⟨hn.2, h⟩, fun h => h.2⟩

/-- `Sum` disturbs the object: for every injective cipher, on a fresh object two consecutive `Sum(nil)` agree only if
the first tag is zero. -/
theorem C19_pmac_sum_twice (bs : Nat) (E : Bytes → Bytes) (hE : ∀ b, b.length = bs → (E b).length = bs)
    (hi : ∀ a b, a.length = bs → b.length = bs → E a = E b → a = b) (d : Pmac) (hd : PMAC.newWithTagSize bs E bs = some d) :
    ∃ t1 t2, PMAC.impl.run d [.sum [], .sum []] = [.bytes t1, .bytes t2] ∧ (t1 = t2 ↔ t1 = zeros bs) := by
  obtain ⟨hc, h0⟩ := new_rep hE hd
  rw [Int.toNat_natCast] at hc h0
  have hpos := hc.pos
  dsimp only at hpos
  have hl1 := PMAC.checkSum_length hc h0
  have hb := h0.done.toBase
  have ht := hb.tag
  have hbs := hb.bs
  have hdE := hb.E
  dsimp only at ht hbs hdE hl1
  have hp : d.pos = 0 := by rw [h0.pos, lastBlock_le hc.pos (by simp)]; rfl
  -- what checkSum does when nothing is pending
  have hcs : ∀ g : Bytes, g.length = bs → ({ d with digest := g } : Pmac).checkSum = E (bxor g (0x80#8 :: zeros (bs - 1))) := by
    intro g hg
    unfold Pmac.checkSum
    dsimp only
    rw [hp, hbs, hdE, if_neg (by omega), List.take_zero]
    refine congrArg E ?_
    have hx : PMAC.xor g [] = g := by unfold PMAC.xor CMAC.xorAt; simp
    rw [hx]
    refine ext_at8 (by rw [List.length_set, Spec.bxor_length (by rw [List.length_cons, zeros_length]; omega)]) fun i hi => ?_
    rw [List.length_set] at hi
    rw [at8_set, Spec.at8_bxor i hi (by rw [List.length_cons, zeros_length]; omega)]
    cases i with
    | zero => rw [if_pos ⟨rfl, hi⟩]; rfl
    | succ i =>
      rw [if_neg (by omega)]
      show _ = _ ^^^ at8 (zeros (bs - 1)) i
      rw [at8_zeros]; simp
  have hdig : d.digest.length = bs := hb.digl
  have h1 : d.checkSum = E (bxor d.digest (0x80#8 :: zeros (bs - 1))) := hcs d.digest hdig
  have h2 := hcs d.checkSum hl1
  refine ⟨d.checkSum.take d.tagsize, ({ d with digest := d.checkSum } : Pmac).checkSum.take d.tagsize, rfl, ?_⟩
  have hl2 : ({ d with digest := d.checkSum } : Pmac).checkSum.length = bs := by
    rw [h2]; exact hE _ (by rw [Spec.bxor_length (by rw [List.length_cons, zeros_length]; omega)]; exact hl1)
  rw [List.take_of_length_le (l := d.checkSum) (by omega), List.take_of_length_le (l := Pmac.checkSum _) (by omega)]
  have hd00 : d.digest = zeros bs := by rw [h0.done.dig, initBlocks_le hc.pos (by simp)]; rfl
  have hpl : (0x80#8 :: zeros (bs - 1)).length = bs := by rw [List.length_cons, zeros_length]; omega
  constructor
  · intro h
    rw [h2] at h
    rw [h1] at h
    have h3 := hi _ _ (by rw [Spec.bxor_length (by omega)]; exact hdig) (by rw [Spec.bxor_length (by rw [← h1]; omega)]; rw [← h1]; exact hl1) h
    rw [← h1, hd00] at h3
    refine ext_at8 (by rw [zeros_length]; exact hl1) fun i hi => ?_
    have h4 := congrArg (fun z => at8 z i) h3
    rw [Spec.at8_bxor i (by rw [zeros_length]; omega) (by omega), Spec.at8_bxor i (by omega) (by omega), at8_zeros] at h4
    rw [at8_zeros]
    have h5 := BitVec.xor_left_inj (at8 (0x80#8 :: zeros (bs - 1)) i) |>.mp h4
    exact h5.symm
  · intro h
    rw [h2, h, ← hd00, ← h1, h, hd00]

/-- Hence the contract fails: no specification whatever describes the object on all histories, for any injective cipher
whose value at the padded empty message is not the zero block. -/
theorem C19_pmac_violated (bs : Nat) (E : Bytes → Bytes) (hE : ∀ b, b.length = bs → (E b).length = bs)
    (hi : ∀ a b, a.length = bs → b.length = bs → E a = E b → a = b) (d : Pmac) (hd : PMAC.newWithTagSize bs E bs = some d)
    (hne : Spec.pmac 0x87 bs E bs [] ≠ zeros bs) (S : HashSpec) : ¬ Refines PMAC.impl d S := by
  intro h
  obtain ⟨t1, t2, e, hiff⟩ := C19_pmac_sum_twice bs E hE hi d hd
  have h1 := h [.sum [], .sum []]
  rw [e] at h1
  simp only [HashSpec.run, List.nil_append, List.cons.injEq, Out.bytes.injEq, and_true] at h1
  have h2 := C19_pmac_contract_partial bs E hE bs d hd [.sum []] ⟨rfl, True.intro⟩
  have h3 : PMAC.impl.run d [.sum []] = [.bytes t1] := by
    have : PMAC.impl.run d [.sum [], .sum []] = .bytes ([] ++ d.checkSum.take d.tagsize) :: PMAC.impl.run { d with digest := d.checkSum } [.sum []] := rfl
    rw [e] at this
    simp only [List.cons.injEq, Out.bytes.injEq] at this
    rw [this.1]; rfl
  rw [h3] at h2
  simp only [HashSpec.run, List.nil_append, List.cons.injEq, Out.bytes.injEq, and_true, Int.toNat_natCast] at h2
  exact hne (h2 ▸ hiff.mp (h1.1.trans h1.2.symm))

/-- With a 64-bit block cipher a message of more than 256 KiB, written at once to a fresh object, makes `Write` panic
(the table has 15 entries); with a 128-bit one the same happens beyond 32 GiB. -/
theorem C19_pmac_long_panics (bs : Nat) (hbs : bs = 8 ∨ bs = 16) (E : Bytes → Bytes) (hE : ∀ b, b.length = bs → (E b).length = bs)
    (t : Int) (d : Pmac) (hd : PMAC.newWithTagSize bs E t = some d) (p : Bytes) (hp : bs * 2 ^ (2 * bs - 1) < p.length) (ops : List Op) :
    PMAC.impl.run d (.write p :: ops) = [.panicked] := by
  obtain ⟨hc, h0⟩ := new_rep hE hd
  have := PMAC.write_panics hc h0 p (by dsimp only; omega) hp
  have e : PMAC.impl.write d p = none := this
  simp only [HashImpl.run, e]

/-- 64-bit blocks use the constant of the 128-bit field: there is a permutation of the blocks, and a message, for
which the tag is not PMAC. -/
theorem C19_pmac_64_violated : ∃ E : Bytes → Bytes, (∀ b, b.length = 8 → (E b).length = 8) ∧ (∀ b, b.length = 8 → E (E b) = b) ∧
    ∀ d, PMAC.newWithTagSize 8 E 8 = some d →
      ¬ RefinesOn (Permits (pmacOk 8) pmacNext (false, 0)) PMAC.impl d { H := Spec.pmac (Spec.gfPoly 8) 8 E 8, size := 8, blockSize := 8 } := by
  have hE : ∀ b : Bytes, b.length = 8 → (addConst (zeros 7 ++ [1#8]) b).length = 8 := fun b hb => by rw [addConst_length _ _ hb]; rfl
  refine ⟨addConst (zeros 7 ++ [1#8]), hE, fun b hb => addConst_inv _ _ hb, ?_⟩
  intro d hd hr
  have hok : Permits (pmacOk 8) pmacNext (false, 0) [.write (zeros 8), .sum []] :=
    ⟨⟨rfl, by decide⟩, rfl, True.intro⟩
  have h1 := hr _ hok
  have h2 := C19_pmac_contract_partial 8 _ hE 8 d hd _ hok
  rw [h1] at h2
  simp only [HashSpec.run, List.nil_append, List.cons.injEq, Out.bytes.injEq, and_true] at h2
  exact absurd h2.2 (by decide +kernel)

/-! Non-vacuity: hypotheses met by concrete ciphers; a permitted history with two messages. -/
example : ∃ d, PMAC.newWithTagSize 16 (addConst (zeros 15 ++ [1#8])) 16 = some d ∧ ∀ S, ¬ Refines PMAC.impl d S := by
  have hE : ∀ b : Bytes, b.length = 16 → (addConst (zeros 15 ++ [1#8]) b).length = 16 := fun b hb => by rw [addConst_length _ _ hb]; rfl
  obtain ⟨d, hd, _⟩ := C19_pmac_partial _ hE 16 (by omega) (by omega)
  refine ⟨d, hd, C19_pmac_violated 16 _ hE (fun a b ha hb h => ?_) d hd (by decide +kernel)⟩
  have := congrArg (addConst (zeros 15 ++ [1#8])) h
  rw [addConst_inv _ _ ha, addConst_inv _ _ hb] at this
  exact this
example : Permits (pmacOk 16) pmacNext (false, 0) [.write [1, 2], .write [3], .sum [7], .size, .reset, .write [1], .sum []] := by
  refine ⟨⟨rfl, by decide⟩, ⟨rfl, by decide⟩, rfl, True.intro, True.intro, ⟨rfl, by decide⟩, rfl, True.intro⟩
/-! A test: halving inverts doubling on the RFC 4493 value. -/
example : Spec.half 0x87 (Spec.dbl 0x87 (hex "fbeed618357133667c85e08f7236a8de")) = hex "fbeed618357133667c85e08f7236a8de" := by decide +kernel

end Verif.Props
