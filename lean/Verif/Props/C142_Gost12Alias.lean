import Verif.Spec.Gost12Alias
/-
C142: UnmarshalBinary of gost/gost34112012 and the slice it is given.
-/
namespace Verif.Props
open Verif.Gost12Alias

namespace G12A

/-- A kept slice lies in the array. -/
def In (w : World) : Prop :=
  match w.buf with
  | .own _ => True
  | .at off len => off + len ≤ w.arr.length
/-- A kept slice reaches to the end of the array. -/
def AtEnd (w : World) : Prop :=
  match w.buf with
  | .own _ => True
  | .at off len => off + len = w.arr.length

theorem append_ok (w : World) (p : Bytes) (h : In w) :
    In (append w p) ∧ (append w p).view = { w.view with buf := w.view.buf ++ p } ∧ (AtEnd w → (append w p).arr = w.arr ∧ AtEnd (append w p)) := by
  obtain ⟨arr, size, n, hsh, chk, buf⟩ := w
  cases buf with
  | own b => exact ⟨trivial, rfl, fun _ => ⟨rfl, trivial⟩⟩
  | «at» off len =>
    have h : off + len ≤ arr.length := h
    unfold append
    dsimp only
    by_cases hc : off + len + p.length ≤ arr.length
    · rw [if_pos hc]
      have hg : goCopy arr (off + len) p = arr.take (off + len) ++ (p ++ arr.drop (off + len + p.length)) := by
        unfold goCopy
        rw [List.take_of_length_le (l := p) (by omega), List.append_assoc]
      refine ⟨?_, ?_, fun he => ?_⟩
      · show off + (len + p.length) ≤ (goCopy arr (off + len) p).length
        rw [goCopy_length _ _ _ h]; omega
      · unfold World.view World.content
        dsimp only
        congr 1
        rw [hg, List.drop_append_of_le_length (by rw [List.length_take]; omega), List.take_append]
        have e1 : (List.drop off (List.take (off + len) arr)) = (arr.drop off).take len := by
          rw [List.drop_take]; congr 1; omega
        rw [e1]
        have e2 : ((arr.drop off).take len).length = len := by rw [List.length_take, List.length_drop]; omega
        rw [e2, Nat.add_sub_cancel_left, List.take_append_of_le_length (Nat.le_refl _), List.take_of_length_le (l := p) (Nat.le_refl _),
          List.take_of_length_le (by omega)]
      · have he : off + len = arr.length := he
        have hp : p = [] := List.eq_nil_of_length_eq_zero (by omega)
        subst hp
        have ha : goCopy arr (off + len) [] = arr := by rw [hg]; simp
        exact ⟨ha, by show off + (len + 0) = (goCopy arr (off + len) []).length; rw [ha]; exact he⟩
    · rw [if_neg hc]
      exact ⟨trivial, rfl, fun _ => ⟨rfl, trivial⟩⟩

theorem tail_ok (w : World) (h : In w) (hl : w.content.length ≥ 64) (n : U64) (a b : Bytes) :
    let w' : World := { w with hsh := a, chk := b, n := n, buf := tail64 w.buf }
    In w' ∧ w'.content = w.content.drop 64 ∧ (AtEnd w → AtEnd w') := by
  obtain ⟨arr, size, n', hsh, chk, buf⟩ := w
  cases buf with
  | own c => exact ⟨trivial, rfl, fun _ => trivial⟩
  | «at» off len =>
    have h : off + len ≤ arr.length := h
    have hl : ((arr.drop off).take len).length ≥ 64 := hl
    rw [List.length_take] at hl
    refine ⟨?_, ?_, fun he => ?_⟩
    · show off + 64 + (len - 64) ≤ arr.length; omega
    · show (arr.drop (off + 64)).take (len - 64) = ((arr.drop off).take len).drop 64
      rw [List.drop_take, List.drop_drop]
    · have he : off + len = arr.length := he
      show off + 64 + (len - 64) = arr.length; omega

theorem writeLoop_ok (fuel : Nat) : ∀ w : World, In w →
    In (writeLoop fuel w) ∧ (writeLoop fuel w).view = Gost12.writeLoop fuel w.view ∧ (writeLoop fuel w).arr = w.arr ∧
    (AtEnd w → AtEnd (writeLoop fuel w)) := by
  induction fuel with
  | zero => intro w h; exact ⟨h, rfl, rfl, id⟩
  | succ fuel ih =>
    intro w h
    rw [writeLoop, Gost12.writeLoop]
    by_cases hl : w.content.length ≥ 64
    · rw [if_pos hl, if_pos (show w.view.buf.length ≥ 64 from hl)]
      obtain ⟨t1, t2, t3⟩ := tail_ok w h hl (w.n + 64 * 8) (Gost12.g w.n w.hsh (w.content.take 64)) (Gost12.add512bit w.chk (w.content.take 64))
      obtain ⟨i1, i2, i3, i4⟩ := ih _ t1
      refine ⟨i1, ?_, i3, fun he => i4 (t3 he)⟩
      rw [i2]
      refine congrArg (Gost12.writeLoop fuel) ?_
      unfold World.view
      rw [t2]
    · rw [if_neg hl, if_neg (show ¬ w.view.buf.length ≥ 64 from hl)]
      exact ⟨h, rfl, rfl, id⟩

theorem write_ok (w : World) (p : Bytes) (h : In w) :
    In (write w p) ∧ (write w p).view = Gost12.write w.view p ∧ (AtEnd w → (write w p).arr = w.arr ∧ AtEnd (write w p)) := by
  obtain ⟨a1, a2, a3⟩ := append_ok w p h
  obtain ⟨b1, b2, b3, b4⟩ := writeLoop_ok (append w p).content.length (append w p) a1
  refine ⟨b1, ?_, fun he => ⟨b3.trans (a3 he).1, b4 (a3 he).2⟩⟩
  have hl : (append w p).content = w.view.buf ++ p := congrArg Gost12.Digest.buf a2
  show (writeLoop (append w p).content.length (append w p)).view = Gost12.writeLoop (w.view.buf ++ p).length { w.view with buf := w.view.buf ++ p }
  rw [b2, a2, hl]

theorem unmarshal_ok (w : World) (lo hi : Nat) (h1 : lo ≤ hi) (h2 : hi ≤ w.arr.length) :
    match unmarshal w lo hi with
    | none => Gost12.unmarshal w.view ((w.arr.take hi).drop lo) = none
    | some w' => Gost12.unmarshal w.view ((w.arr.take hi).drop lo) = some w'.view ∧ w'.arr = w.arr ∧ In w' ∧ (hi = w.arr.length → AtEnd w') := by
  unfold unmarshal
  have hL : ((w.arr.take hi).drop lo).length = hi - lo := by rw [List.length_drop, List.length_take]; omega
  cases hu : Gost12.unmarshal w.view ((w.arr.take hi).drop lo) with
  | none => rfl
  | some d =>
    dsimp only
    unfold Gost12.unmarshal at hu
    split at hu
    · cases hu
    · rename_i hlen
      split at hu
      · cases hu
      · injection hu with hu
        rw [hL] at hlen
        refine ⟨?_, rfl, ?_, fun he => ?_⟩
        · refine congrArg some ?_
          subst hu
          unfold World.view World.content
          dsimp only
          rw [List.drop_drop, List.drop_take (l := w.arr) (i := lo + 145), Nat.sub_sub]
        · show lo + 145 + (hi - lo - 145) ≤ w.arr.length; omega
        · show lo + 145 + (hi - lo - 145) = w.arr.length; omega

theorem reset_ok (w : World) : In (reset w) ∧ (reset w).view = Gost12.reset w.view ∧ (reset w).arr = w.arr ∧ AtEnd (reset w) :=
  ⟨trivial, rfl, rfl, trivial⟩

end G12A
open G12A

/-- With an array that the caller leaves alone after `UnmarshalBinary` and that ends with the data, the object and the array have nothing
to do with each other, in every history.  Missing for the full claim: stores, and data that is followed by more of the array. -/
theorem C142_end_partial (as : List Act) : ∀ w : World, In w → AtEnd w → (∀ i v, Act.store i v ∉ as) →
    (∀ lo hi, Act.unmarshal lo hi ∈ as → lo ≤ hi ∧ hi = w.arr.length) → run w as = Spec.Gost12Alias.run w.arr w.view as := by
  induction as with
  | nil => intro w _ _ _ _; rfl
  | cons a as ih =>
    intro w h he hs hu
    have hs' : ∀ i v, Act.store i v ∉ as := fun i v hm => hs i v (List.mem_cons_of_mem _ hm)
    have hu' : ∀ lo hi, Act.unmarshal lo hi ∈ as → lo ≤ hi ∧ hi = w.arr.length := fun lo hi hm => hu lo hi (List.mem_cons_of_mem _ hm)
    cases a with
    | call o =>
      cases o with
      | write p =>
        obtain ⟨h1, h2, h3⟩ := write_ok w p h
        obtain ⟨h4, h5⟩ := h3 he
        rw [run, Spec.Gost12Alias.run, ih _ h1 h5 hs' (by rw [h4]; exact hu'), h2, h4]
      | sum b =>
        rw [run, Spec.Gost12Alias.run]
        cases Gost12.checkSum w.view with
        | none => rfl
        | some r => dsimp only; rw [ih w h he hs' hu']
      | reset =>
        obtain ⟨h1, h2, h3, h4⟩ := reset_ok w
        rw [run, Spec.Gost12Alias.run, ih _ h1 h4 hs' (by rw [h3]; exact hu'), h2, h3]
      | size => rw [run, Spec.Gost12Alias.run, ih w h he hs' hu']; rfl
      | blockSize => rw [run, Spec.Gost12Alias.run, ih w h he hs' hu']
    | marshal => rw [run, Spec.Gost12Alias.run, ih w h he hs' hu']
    | load => rw [run, Spec.Gost12Alias.run, ih w h he hs' hu']
    | store i v => exact absurd (List.mem_cons_self) (hs i v)
    | unmarshal lo hi =>
      obtain ⟨l1, l2⟩ := hu lo hi List.mem_cons_self
      have hk := unmarshal_ok w lo hi l1 (by omega)
      rw [run, Spec.Gost12Alias.run]
      cases hw : unmarshal w lo hi with
      | none =>
        rw [hw] at hk
        dsimp only at hk ⊢
        rw [hk, ih w h he hs' hu']
      | some w' =>
        rw [hw] at hk
        dsimp only at hk ⊢
        obtain ⟨k1, k2, k3, k4⟩ := hk
        rw [k1, ih w' k3 (k4 l2) hs' (by rw [k2]; exact hu'), k2]

/-- Wherever the data lies in the array, as long as the caller leaves the array alone every later result is that of an object with its
own copy.  Missing for the full claim: stores, and what the caller finds in its array. -/
theorem C142_calls_partial (as : List Act) (ha : ∀ a ∈ as, (∃ o, a = .call o) ∨ a = .marshal) : ∀ w : World, In w →
    ∀ arr, run w as = Spec.Gost12Alias.run arr w.view as := by
  induction as with
  | nil => intro w _ _; rfl
  | cons a as ih =>
    intro w h arr
    have ih := ih fun a hm => ha a (List.mem_cons_of_mem _ hm)
    rcases ha a List.mem_cons_self with ⟨o, e⟩ | e
    · subst e
      cases o with
      | write p =>
        obtain ⟨h1, h2, _⟩ := write_ok w p h
        rw [run, Spec.Gost12Alias.run, ih _ h1 arr, h2]
      | sum b =>
        rw [run, Spec.Gost12Alias.run]
        cases Gost12.checkSum w.view with
        | none => rfl
        | some r => dsimp only; rw [ih w h arr]
      | reset =>
        obtain ⟨h1, h2, _, _⟩ := reset_ok w
        rw [run, Spec.Gost12Alias.run, ih _ h1 arr, h2]
      | size => rw [run, Spec.Gost12Alias.run, ih w h arr]; rfl
      | blockSize => rw [run, Spec.Gost12Alias.run, ih w h arr]
    · subst e
      rw [run, Spec.Gost12Alias.run, ih w h arr]

/-- The same from `UnmarshalBinary` on. -/
theorem C142_restored_partial (w : World) (lo hi : Nat) (h1 : lo ≤ hi) (h2 : hi ≤ w.arr.length) (as : List Act)
    (ha : ∀ a ∈ as, (∃ o, a = .call o) ∨ a = .marshal) (hw : In w) :
    run w (.unmarshal lo hi :: as) = Spec.Gost12Alias.run w.arr w.view (.unmarshal lo hi :: as) := by
  have hk := unmarshal_ok w lo hi h1 h2
  rw [run, Spec.Gost12Alias.run]
  cases he : unmarshal w lo hi with
  | none =>
    rw [he] at hk
    dsimp only at hk ⊢
    rw [hk, C142_calls_partial as ha w hw w.arr]
  | some w' =>
    rw [he] at hk
    dsimp only at hk ⊢
    rw [hk.1, C142_calls_partial as ha w' hk.2.2.1 w.arr]

/-- An object with one byte written, its encoding followed by one more byte of the caller. -/
def g12World : World :=
  let d : Gost12.Digest := ⟨32, [5#8], 0, List.replicate 64 1#8, zeros 64⟩
  ⟨Gost12.marshal d ++ [7#8], 32, 0, List.replicate 64 1#8, zeros 64, .own []⟩

set_option maxRecDepth 100000 in
/-- The object is changed by a store of the caller into the array that was given to `UnmarshalBinary`. -/
theorem C142_store_violated : run g12World [.unmarshal 0 146, .store 145 9#8, .marshal] ≠
    Spec.Gost12Alias.run g12World.arr g12World.view [.unmarshal 0 146, .store 145 9#8, .marshal] := by decide +kernel

set_option maxRecDepth 100000 in
/-- `Write` on the object overwrites the byte of the caller that follows the data given to `UnmarshalBinary`. -/
theorem C142_write_violated : run g12World [.unmarshal 0 146, .call (.write [9#8]), .load] ≠
    Spec.Gost12Alias.run g12World.arr g12World.view [.unmarshal 0 146, .call (.write [9#8]), .load] := by decide +kernel

/-- The world of the counterexamples is that of an object made by `New`, and its encoding is accepted. -/
example : Gost12.new 32 = some g12World.view := rfl
set_option maxRecDepth 100000 in
example : (unmarshal g12World 0 146).isSome ∧ (unmarshal g12World 0 147).isSome := by decide +kernel
/-- The hypotheses of the positive theorems are met. -/
example : In g12World ∧ AtEnd g12World ∧ 147 = g12World.arr.length := ⟨trivial, trivial, rfl⟩

end Verif.Props
