import Verif.Lemmas.RadioGatunObj
/-
C50, package radio_gatun.
-/
namespace Verif.Props
open Verif.RadioGatun

theorem radioGatun_fit32 : Fit pkg32 Spec.RadioGatun.rg32 where
  w0 := by decide
  wb0 := by decide
  wb := rfl
  get := rfl
  put := rfl
  get_at b j n i h := by
    show getLE32 b (j + i) = getLE32 ((b.drop j).take n) i
    have h' : i + 4 ≤ n := h
    unfold getLE32 at8
    simp only [List.getD_eq_getElem?_getD]
    rw [List.getElem?_take_of_lt (by omega), List.getElem?_take_of_lt (by omega), List.getElem?_take_of_lt (by omega), List.getElem?_take_of_lt (by omega)]
    simp only [List.getElem?_drop, Nat.add_assoc]
  get_zero n i := by
    show getLE32 (zeros n) i = 0
    unfold getLE32
    simp only [at8_zeros]; rfl
  rot := by decide
  num := rfl
  outs := rfl

theorem radioGatun_fit64 : Fit pkg64 Spec.RadioGatun.rg64 where
  w0 := by decide
  wb0 := by decide
  wb := rfl
  get := rfl
  put := rfl
  get_at b j n i h := by
    show getLE64 b (j + i) = getLE64 ((b.drop j).take n) i
    have h' : i + 8 ≤ n := h
    unfold getLE64 at8
    simp only [List.getD_eq_getElem?_getD]
    rw [List.getElem?_take_of_lt (by omega), List.getElem?_take_of_lt (by omega), List.getElem?_take_of_lt (by omega), List.getElem?_take_of_lt (by omega),
      List.getElem?_take_of_lt (by omega), List.getElem?_take_of_lt (by omega), List.getElem?_take_of_lt (by omega), List.getElem?_take_of_lt (by omega)]
    simp only [List.getElem?_drop, Nat.add_assoc]
  get_zero n i := by
    show getLE64 (zeros n) i = 0
    unfold getLE64
    simp only [at8_zeros]; rfl
  rot := by decide
  num := rfl
  outs := rfl

theorem radioGatun_contract {P : Pkg w} {Q : Spec.RadioGatun.Params w} (hf : Fit P Q) :
    Refines (RadioGatun.impl P) (RadioGatun.reset P) { H := Spec.RadioGatun.hash Q, size := 32, blockSize := P.blockSize } :=
  refines_of_sim _ _ _ (RadioGatun.Rep P Q) (RadioGatun.reset_rep P Q)
    (fun d m p h => ⟨_, rfl, write_rep hf d m p h⟩)
    (fun d m b h => ⟨d, by show some (d, b ++ d.checkSum P) = _; rw [checkSum_eq hf d m h], h⟩)
    (fun _ _ _ => RadioGatun.reset_rep P Q) (fun _ _ _ => rfl) (fun _ _ _ => rfl)

/-- radio_gatun.New32: RadioGatún[32] of the bytes written since the last Reset, for every history of calls. -/
theorem C50_radio_gatun32 : Refines (RadioGatun.impl pkg32) (RadioGatun.reset pkg32) { H := Spec.RadioGatun.hash Spec.RadioGatun.rg32, size := 32, blockSize := 156 } :=
  radioGatun_contract radioGatun_fit32
/-- radio_gatun.New64: RadioGatún[64]. -/
theorem C50_radio_gatun64 : Refines (RadioGatun.impl pkg64) (RadioGatun.reset pkg64) { H := Spec.RadioGatun.hash Spec.RadioGatun.rg64, size := 32, blockSize := 312 } :=
  radioGatun_contract radioGatun_fit64

/-- For instance a message cut in two, with a Sum in between. -/
example (a b : Bytes) : (RadioGatun.impl pkg32).run (RadioGatun.reset pkg32) [.write a, .sum [], .write b, .sum []] =
    [.wrote a.length, .bytes (Spec.RadioGatun.hash Spec.RadioGatun.rg32 a), .wrote b.length, .bytes (Spec.RadioGatun.hash Spec.RadioGatun.rg32 (a ++ b))] := by
  exact C50_radio_gatun32.cut a b

end Verif.Props
