import Verif.Model.VMACNonce
import Verif.Props.C41_VMAC
/-
C137: package vmac, SetNonce and the ownership of the nonce.
-/
namespace Verif.Props
open Verif.VMACNonce

/-- What a user expects: the nonce is the value passed to New or to the last successful SetNonce; a nonce of 16 bytes and more is refused and
changes nothing; the message is kept over SetNonce; a Sum without a nonce panics; the caller's slices are his own. -/
def nonceSpec (tag : Bytes → Bytes → Bytes) : Mem → Bytes → Bytes → List Call → List Res
  | _, _, _, [] => []
  | mem, n, m, .write p :: cs => .wrote p.length :: nonceSpec tag mem n (m ++ p) cs
  | mem, n, m, .sum b :: cs => if n = [] then [.panicked] else .bytes (b ++ tag n m) :: nonceSpec tag mem n m cs
  | mem, n, _, .reset :: cs => .done :: nonceSpec tag mem n [] cs
  | mem, n, m, .setNonce k :: cs =>
    if (mem k).length < 16 then .done :: nonceSpec tag mem (mem k) m cs else .refused :: nonceSpec tag mem n m cs
  | mem, n, m, .fill k v :: cs => .done :: nonceSpec tag (fun j => if j = k then v.take (mem k).length ++ (mem k).drop v.length else mem j) n m cs

/-- The caller never writes into the slice that is the nonce at that time. -/
def Untouched : Mem → Nat → List Call → Prop
  | _, _, [] => True
  | mem, h, .setNonce k :: cs => Untouched mem (if (mem k).length < 16 then k else h) cs
  | mem, h, .fill k v :: cs => k ≠ h ∧ Untouched (fun j => if j = k then v.take (mem k).length ++ (mem k).drop v.length else mem j) h cs
  | mem, h, .write _ :: cs | mem, h, .sum _ :: cs | mem, h, .reset :: cs => Untouched mem h cs

theorem vmac_fill_eq (mem : Mem) (n : Nat) (v : Bytes) :
    fill mem n v = fun j => if j = n then v.take (mem n).length ++ (mem n).drop v.length else mem j := by
  funext j
  unfold fill
  by_cases h : j = n
  · rw [if_pos h, if_pos h]
    unfold goCopy
    simp
  · rw [if_neg h, if_neg h]

theorem vmac_empty_nonce (E : Bytes → Bytes) (size : Int) (m : Bytes) : VMAC.Digest.checkSum ⟨E, [], size, m⟩ = none := by
  unfold VMAC.Digest.checkSum
  have : VMAC.Digest.pdf ⟨E, [], size, m⟩ = none := by unfold VMAC.Digest.pdf; rw [if_pos (Or.inl rfl)]
  rw [this]
  cases VMAC.Digest.vhash ⟨E, [], size, m⟩ <;> rfl

/-- For callers who leave the slice in use alone, every history of New, Write, Sum, Reset, SetNonce and changes of other slices gives what the
user expects, with the tags of VMAC.  Missing: callers who reuse the slice (`C137_nonce_aliased_violated`). -/
theorem C137_nonce_partial (E : Bytes → Bytes) (hE : VmacCipher E) (mem : Mem) (n size : Nat) (hs : size = 8 ∨ size = 16) (hl : (mem n).length < 16)
    (cs : List Call) (hq : Untouched mem n cs) :
    ∃ o, new E mem n size = some o ∧ run mem o cs = nonceSpec (fun n m => Spec.VMAC.vmac E n size m) mem (mem n) [] cs := by
  refine ⟨⟨E, n, size, []⟩, ?_, ?_⟩
  · unfold new
    rw [if_neg (by omega), if_neg (by rcases hs with rfl | rfl <;> decide)]
  · generalize ([] : Bytes) = m
    induction cs generalizing mem n m with
    | nil => rfl
    | cons c cs ih =>
      cases c with
      | write p => rw [run, nonceSpec, ih mem n hl hq]
      | reset => rw [run, nonceSpec, ih mem n hl hq]
      | sum b =>
        rw [run, nonceSpec]
        by_cases h0 : mem n = []
        · rw [if_pos h0]
          have : (Object.view mem ⟨E, n, size, m⟩).checkSum = none := by unfold Object.view; dsimp only; rw [h0]; exact vmac_empty_nonce E size m
          rw [this]
        · rw [if_neg h0]
          have : (Object.view mem ⟨E, n, size, m⟩).checkSum = some (Spec.VMAC.vmac E (mem n) size m) :=
            VMAC.checkSum_eq hE.block (Object.view mem ⟨E, n, size, m⟩) rfl size rfl hs h0 hl (vmac_l3Key hE)
          rw [this]
          dsimp only
          rw [ih mem n hl hq]
      | setNonce k =>
        rw [run, nonceSpec]
        rw [Untouched] at hq
        unfold Object.setNonce
        by_cases hk : (mem k).length < 16
        · rw [if_neg (by omega), if_pos hk]
          rw [if_pos hk] at hq
          dsimp only
          rw [ih mem k hk hq]
        · rw [if_pos (by omega), if_neg hk]
          rw [if_neg hk] at hq
          dsimp only
          rw [ih mem n hl hq]
      | fill k v =>
        rw [run, nonceSpec]
        obtain ⟨hk, hq⟩ := hq
        rw [vmac_fill_eq]
        have e : (fun j => if j = k then v.take (mem k).length ++ (mem k).drop v.length else mem j) n = mem n := by
          dsimp only; rw [if_neg (Ne.symm hk)]
        have := ih (fun j => if j = k then v.take (mem k).length ++ (mem k).drop v.length else mem j) n (by dsimp only at e ⊢; rw [e]; exact hl) hq m
        dsimp only at e
        rw [this, e]

theorem vmac_word_inj {a b v : Nat} (ha : a < 2 ^ 64) (hb : b < 2 ^ 64) (h : (a + v) % 2 ^ 64 = (b + v) % 2 ^ 64) : a = b := by omega

/-- 16-byte tags of one message under two nonces are different, if the cipher is a permutation of the blocks and the nonces are different as
numbers (nonces that differ only in leading zeros are the same nonce to VMAC). -/
theorem vmac16_inj (E : Bytes → Bytes) (hE : VmacCipher E) (hinj : ∀ a b : Bytes, a.length = 16 → b.length = 16 → E a = E b → a = b)
    (n n' m : Bytes) (hn : n.length < 16) (hn' : n'.length < 16)
    (h : Spec.VMAC.vmac E n 16 m = Spec.VMAC.vmac E n' 16 m) : Spec.beNat n = Spec.beNat n' := by
  have hp : ∀ n : Bytes, Spec.VMAC.pdf E n 16 = E (Spec.beBytes 16 (Spec.beNat n)) := by
    intro n
    unfold Spec.VMAC.pdf
    dsimp only
    rw [show (16 : Nat) / 16 = 1 from rfl, Nat.mod_one, Nat.zero_mul, Nat.sub_zero, List.drop_zero, List.take_of_length_le (by rw [hE.block]; exact Nat.le_refl _)]
  have hpl : ∀ n : Bytes, (Spec.VMAC.pdf E n 16).length = 16 := fun n => by rw [hp, hE.block]
  have hv : ∀ n : Bytes, Spec.VMAC.vmac E n 16 m =
      Spec.beBytes 8 ((Spec.VMAC.be (Spec.VMAC.pdf E n 16) 0 + Spec.VMAC.vhash E 0 m) % 2 ^ 64) ++
      Spec.beBytes 8 ((Spec.VMAC.be (Spec.VMAC.pdf E n 16) 8 + Spec.VMAC.vhash E 1 m) % 2 ^ 64) := by
    intro n
    unfold Spec.VMAC.vmac
    rw [show (16 : Nat) / 8 = 2 from rfl, show List.range 2 = [0, 1] from rfl, List.map_cons, List.map_cons, List.map_nil, List.flatten_cons,
      List.flatten_cons, List.flatten_nil, List.append_nil]
  rw [hv, hv] at h
  have h1 := List.append_inj h (by rw [Spec.beBytes_length, Spec.beBytes_length])
  have hb : ∀ x, Spec.beNat (Spec.beBytes 8 (x % 2 ^ 64)) = x % 2 ^ 64 := by
    intro x
    exact Big.beNat_beBytes 8 _ (Nat.lt_of_lt_of_eq (Nat.mod_lt _ (by decide)) (by decide))
  have hlt : ∀ (n : Bytes) (o : Nat), o + 8 ≤ 16 → Spec.VMAC.be (Spec.VMAC.pdf E n 16) o < 2 ^ 64 := by
    intro n o ho
    have := Spec.beNat_lt (((Spec.VMAC.pdf E n 16).drop o).take 8)
    rw [List.length_take, List.length_drop, hpl, Nat.min_eq_left (by omega)] at this
    rw [show (256 : Nat) ^ 8 = 2 ^ 64 by decide] at this
    exact this
  have q : ∀ (o : Nat) (v : Nat), o + 8 ≤ 16 →
      Spec.beBytes 8 ((Spec.VMAC.be (Spec.VMAC.pdf E n 16) o + v) % 2 ^ 64) = Spec.beBytes 8 ((Spec.VMAC.be (Spec.VMAC.pdf E n' 16) o + v) % 2 ^ 64) →
      ((Spec.VMAC.pdf E n 16).drop o).take 8 = ((Spec.VMAC.pdf E n' 16).drop o).take 8 := by
    intro o v ho e
    have e := congrArg Spec.beNat e
    rw [hb, hb] at e
    have e := vmac_word_inj (hlt n o ho) (hlt n' o ho) e
    exact Spec.beNat_inj (by rw [List.length_take, List.length_drop, List.length_take, List.length_drop, hpl, hpl]) e
  have q0 := q 0 _ (by omega) h1.1
  have q8 := q 8 _ (by omega) h1.2
  have split : ∀ l : Bytes, l.length = 16 → l = (l.drop 0).take 8 ++ (l.drop 8).take 8 := by
    intro l hl
    rw [List.drop_zero, List.take_of_length_le (l := l.drop 8) (by rw [List.length_drop]; omega), List.take_append_drop]
  have e : Spec.VMAC.pdf E n 16 = Spec.VMAC.pdf E n' 16 := by rw [split _ (hpl n), split _ (hpl n'), q0, q8]
  rw [hp, hp] at e
  have e := congrArg Spec.beNat (hinj _ _ (Spec.beBytes_length _ _) (Spec.beBytes_length _ _) e)
  have b : ∀ n : Bytes, n.length < 16 → Spec.beNat n < 256 ^ 16 := fun n hn =>
    Nat.lt_of_lt_of_le (Spec.beNat_lt n) (Nat.pow_le_pow_right (by decide) (by omega))
  rw [Big.beNat_beBytes 16 _ (b n hn), Big.beNat_beBytes 16 _ (b n' hn')] at e
  exact e

/-- The full claim (the nonce is the value passed) is false: a caller who gets an object for a nonce and then fills the slice with any other nonce
of the same length gets, for every message, a tag that is not the tag of the nonce passed (it is the tag of the new contents), for every
permutation as the cipher. -/
theorem C137_nonce_aliased_violated (E : Bytes → Bytes) (hE : VmacCipher E) (hinj : ∀ a b : Bytes, a.length = 16 → b.length = 16 → E a = E b → a = b)
    (mem : Mem) (n : Nat) (v m : Bytes) (hl : (mem n).length < 16) (h0 : mem n ≠ []) (hv : v.length = (mem n).length) (hne : v ≠ mem n) :
    ∃ o, new E mem n (16 : Nat) = some o ∧
      run mem o [.write m, .fill n v, .sum []] = [.wrote m.length, .done, .bytes (Spec.VMAC.vmac E v 16 m)] ∧
      nonceSpec (fun n m => Spec.VMAC.vmac E n 16 m) mem (mem n) [] [.write m, .fill n v, .sum []] =
        [.wrote m.length, .done, .bytes (Spec.VMAC.vmac E (mem n) 16 m)] ∧
      Spec.VMAC.vmac E v 16 m ≠ Spec.VMAC.vmac E (mem n) 16 m := by
  refine ⟨⟨E, n, (16 : Nat), []⟩, ?_, ?_, ?_, ?_⟩
  · unfold new
    rw [if_neg (by omega), if_neg (by decide)]
  · rw [run, run, run, vmac_fill_eq]
    have e : (Object.view (fun j => if j = n then v.take (mem n).length ++ (mem n).drop v.length else mem j) ⟨E, n, (16 : Nat), [] ++ m⟩) =
        ⟨E, v, (16 : Nat), m⟩ := by
      unfold Object.view
      dsimp only
      rw [if_pos rfl, List.take_of_length_le (by omega), List.drop_of_length_le (by omega), List.append_nil, List.nil_append]
    dsimp only at e ⊢
    rw [e, VMAC.checkSum_eq hE.block ⟨E, v, (16 : Nat), m⟩ rfl 16 rfl (Or.inr rfl)
      (by intro h; dsimp only at h; rw [h] at hv; exact h0 (List.length_eq_zero_iff.1 hv.symm)) (by dsimp only; omega) (vmac_l3Key hE)]
    dsimp only
    rw [run, List.nil_append]
  · rw [nonceSpec, nonceSpec, nonceSpec, if_neg h0, nonceSpec, List.nil_append, List.nil_append]
  · intro h
    exact hne (Spec.beNat_inj hv (vmac16_inj E hE hinj v (mem n) m (by omega) hl h))

/-! Non-vacuity: two slices, a history with a refused nonce, a change of the nonce and of a slice not in use. -/
def nonceMem : Mem := fun k => if k = 0 then [1, 2] else if k = 1 then [3, 4, 5] else zeros 16
example : Untouched nonceMem 0 [.write [7], .setNonce 2, .sum [], .setNonce 1, .fill 0 [9, 9], .sum [1]] := by simp [Untouched, nonceMem]
example : ∀ a b : Bytes, a.length = 16 → b.length = 16 → idCipher a = idCipher b → a = b := by
  intro a b ha hb h
  unfold idCipher at h
  rw [List.take_append_of_le_length (by omega), List.take_append_of_le_length (by omega), List.take_of_length_le (by omega), List.take_of_length_le (by omega)] at h
  exact h
example : ([9, 9] : Bytes).length = (nonceMem 0).length ∧ ([9, 9] : Bytes) ≠ nonceMem 0 ∧ (nonceMem 0).length < 16 := by decide
end Verif.Props
