import Verif.Model.K12Custom
import Verif.Props.C28_K12
/-
C144: package k12 and the customisation string given to New.
-/
namespace Verif.Props
open Verif.K12Custom

/-- What a user expects: the customisation string is the value `c` given to New; the caller's array is the caller's own. -/
def k12Captured (hs : Nat) (c : Bytes) : Bytes → List Act → List Out
  | _, [] => []
  | m, .call (.write p) :: as => .wrote p.length :: k12Captured hs c (m ++ p) as
  | m, .call (.sum b) :: as => .bytes (b ++ Spec.K12.kt m c hs) :: k12Captured hs c m as
  | _, .call .reset :: as => .done :: k12Captured hs c [] as
  | m, .call .size :: as => .num hs :: k12Captured hs c m as
  | m, .call .blockSize :: as => .num 8192 :: k12Captured hs c m as
  | m, .store _ _ :: as => .done :: k12Captured hs c m as

/-- What the user gets: the customisation string is what the array `c` holds at the time of each Sum. -/
def k12Current (hs : Nat) : Bytes → Bytes → List Act → List Out
  | _, _, [] => []
  | c, m, .call (.write p) :: as => .wrote p.length :: k12Current hs c (m ++ p) as
  | c, m, .call (.sum b) :: as => .bytes (b ++ Spec.K12.kt m c hs) :: k12Current hs c m as
  | c, _, .call .reset :: as => .done :: k12Current hs c [] as
  | c, m, .call .size :: as => .num hs :: k12Current hs c m as
  | c, m, .call .blockSize :: as => .num 8192 :: k12Current hs c m as
  | c, m, .store i v :: as => .done :: k12Current hs (c.set i v) m as

/-- The number of bytes a call writes. -/
def k12Len : Act → Nat
  | .call (.write p) => p.length
  | _ => 0
/-- The number of bytes a history writes. -/
def k12Written (as : List Act) : Nat := (as.map k12Len).sum

theorem k12_rep_custom {c : Bytes} {hs : Int} {d : K12.Digest} {o : Nat} {m : Bytes} (h : K12.Rep c hs d o m) (c' : Bytes) :
    K12.Rep c' hs { d with customString := c' } o m := ⟨rfl, h.hs, h.ab, h.le, h.one, h.many⟩

theorem k12Custom_run (hs : Nat) (as : List Act) : ∀ (w : World) (m : Bytes), K12.Rep w.arr hs w.view 0 m → w.arr.length < 2 ^ 63 →
    m.length + k12Written as < 2 ^ 63 → Act.call .reset ∉ as → run w as = k12Current hs w.arr m as := by
  induction as with
  | nil => intro w m _ _ _ _; rfl
  | cons a as ih =>
    intro w m h hc hm hr
    have hr' : Act.call .reset ∉ as := fun hh => hr (List.mem_cons_of_mem _ hh)
    have hsum : k12Written (a :: as) = k12Len a + k12Written as := by
      unfold k12Written; rw [List.map_cons, List.sum_cons]
    rw [hsum] at hm
    cases a with
    | call o =>
      cases o with
      | write p =>
        obtain ⟨h1, h2, _⟩ := K12.write_rep h p (Or.inl rfl)
        rw [run, k12Current]
        have hm : m.length + (p.length + k12Written as) < 2 ^ 63 := hm
        rw [h1, ih { w with d := (w.view.write p).1 } (m ++ p) (k12_rep_custom h2 w.arr) hc (by rw [List.length_append]; omega) hr']
      | sum b =>
        have hel := K12.lengthEncode_length w.arr.length (by omega)
        have hfl : (K12.full m w.arr).length = m.length + w.arr.length + (Spec.K12.lengthEncode w.arr.length).length := by
          unfold K12.full; rw [List.length_append, List.length_append]
        have h1 := (K12.read_rep h (by omega) (by omega) (Or.inl rfl) hs).1
        have h2 : w.view.sum b = some (b ++ Spec.K12.kt m w.arr hs) := by
          unfold K12.Digest.sum
          rw [h.hs, if_neg (by omega), Int.toNat_natCast, h1]
        rw [run, k12Current, h2]
        dsimp only
        rw [ih w m h hc (by omega) hr']
      | reset => exact absurd List.mem_cons_self hr
      | size =>
        have h1 : w.d.hashSize = hs := h.hs
        rw [run, k12Current, ih w m h hc (by omega) hr', h1]; rfl
      | blockSize => rw [run, k12Current, ih w m h hc (by omega) hr']
    | store i v =>
      rw [run, k12Current, ih { w with arr := w.arr.set i v } m (k12_rep_custom h (w.arr.set i v)) (by rw [List.length_set]; exact hc) (by omega) hr']

/-- In every history of Write, Sum, Size, BlockSize and stores of the caller into the array it gave to New (messages below 2^63 bytes, no Reset,
for which see C28), each Sum is KangarooTwelve of the message with what the array holds at that time. -/
theorem C144_current (c : Bytes) (hc : c.length < 2 ^ 63) (hs : Nat) (as : List Act) (h1 : k12Written as < 2 ^ 63) (h2 : Act.call .reset ∉ as) :
    run (new c hs) as = k12Current hs c [] as :=
  k12Custom_run hs as (new c hs) [] (k12_rep_custom (K12.init_rep c hs) c) hc (by rw [List.length_nil, Nat.zero_add]; exact h1) h2

/-- So for a caller who leaves the array alone, the customisation string is the one given to New. Missing: stores (`C144_store_violated`). -/
theorem C144_untouched_partial (c : Bytes) (hc : c.length < 2 ^ 63) (hs : Nat) (as : List Act) (h1 : k12Written as < 2 ^ 63)
    (h2 : Act.call .reset ∉ as) (h3 : ∀ i v, Act.store i v ∉ as) : run (new c hs) as = k12Captured hs c [] as := by
  rw [C144_current c hc hs as h1 h2]
  clear h1 h2
  generalize ([] : Bytes) = m
  induction as generalizing m with
  | nil => rfl
  | cons a as ih =>
    have ih := ih fun i v hh => h3 i v (List.mem_cons_of_mem _ hh)
    cases a with
    | call o => cases o <;> rw [k12Current, k12Captured, ih]
    | store i v => exact absurd List.mem_cons_self (h3 i v)

theorem k12_custom_ne : ¬ (((k12Sponge 0x07).write [1, 1, 1]).1.read 32).2 = (((k12Sponge 0x07).write [0, 1, 1]).1.read 32).2 := by decide +kernel

/-- Sum after a store into the array that was given to New is not the hash with the customisation string given to New. -/
theorem C144_store_violated : run (new [0] (32 : Nat)) [.store 0 1, .call (.sum [])] ≠ k12Captured 32 [0] [] [.store 0 1, .call (.sum [])] := by
  rw [C144_current [0] (by decide) 32 [.store 0 1, .call (.sum [])] (by show 0 + (0 + 0) < _; decide) (by simp)]
  simp only [k12Current, k12Captured, ne_eq, List.cons.injEq, Out.bytes.injEq, and_true, true_and, List.nil_append]
  rw [show ([0] : Bytes).set 0 1 = [1] from rfl, K12.kt_eq, K12.kt_eq, k12_turbo, k12_turbo]
  have e1 : K12.last (K12.full [] [1]) = ([1, 1, 1], 0x07) := by decide +kernel
  have e2 : K12.last (K12.full [] [0]) = ([0, 1, 1], 0x07) := by decide +kernel
  rw [e1, e2]
  exact k12_custom_ne

/-- The hypotheses are met by a history with writes, sums and stores. -/
example : k12Written [.call (.write (zeros 9000)), .call (.sum []), .store 0 7, .call (.write (zeros 10)), .call (.sum [1])] < 2 ^ 63 := by
  have : k12Written [.call (.write (zeros 9000)), .call (.sum []), .store 0 7, .call (.write (zeros 10)), .call (.sum [1])] = 9010 := by
    simp [k12Written, k12Len]
  rw [this]; decide
example : Act.call .reset ∉ [Act.call (.write [1]), .store 0 7, .call (.sum [])] := by simp

end Verif.Props
