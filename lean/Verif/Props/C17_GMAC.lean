import Verif.Lemmas.GMAC
import Verif.HistAuto
import Verif.Props.C18_CMAC
/-
C17: package gmac.
-/
namespace Verif.Props
open Verif.GMAC
open Verif.Spec

/-- The nonce that an empty one stands for. -/
def gmacIV (iv : Bytes) : Bytes := if iv = [] then zeros 12 else iv

/-- `New` accepts exactly the ciphers with 128-bit blocks, with every nonce. -/
theorem C17_gmac_new (bs : Nat) (E : Bytes → Bytes) (iv : Bytes) : (GMAC.new bs E iv).isSome ↔ bs = 16 := by
  unfold GMAC.new
  split
  · rename_i h; simp [h]
  · rename_i h; simp; omega

theorem gmac_new_rep (E : Bytes → Bytes) (iv : Bytes) (g : Ghash) (hg : GMAC.new 16 E iv = some g) : Rep E (gmacIV iv) g [] 0 := by
  unfold GMAC.new at hg
  rw [if_neg (by omega)] at hg
  dsimp only at hg
  have := Option.some.inj hg
  subst this
  refine rep_nil _ rfl ?_ rfl (zeros_length _) rfl rfl
  show E (deriveCounter _ _) = _
  rw [deriveCounter_eq]
  unfold gmacIV
  cases iv with
  | nil => rfl
  | cons a l => rfl

theorem gmac_reset_rep {E : Bytes → Bytes} {iv : Bytes} {g : Ghash} {m : Bytes} {n : Nat} (h : Rep E iv g m n) : Rep E iv g.reset [] 0 :=
  rep_nil _ h.gcm h.mask rfl h.rl rfl rfl

/-- What the object holds between two calls, as seen by the caller: the number of bytes written since the last Reset. -/
def gmacNext (k : Nat) : Op → Nat
  | .write p => k + p.length
  | .reset => 0
  | _ => k
/-- A `Write` (of anything but the empty string) comes when a whole number of blocks has been written; `Sum` is called with an
empty prefix. -/
def gmacOk (k : Nat) : Op → Prop
  | .write p => p = [] ∨ k % 16 = 0
  | .sum b => b = []
  | _ => True

theorem gmac_believe_ok (k : Nat) (p : Bytes) (h : p = [] ∨ k % 16 = 0) : believe k (k % 16) p.length = k + p.length := by
  unfold believe
  rcases h with rfl | h
  · have := Nat.mod_le k 16
    have := Nat.mod_lt k (show 0 < 16 by omega)
    rw [List.length_nil]
    split
    · rfl
    · rw [if_pos (by omega)]
  · rw [if_pos h]

/-- The contract of C17, for the histories in which data are written after whole blocks only (a message in one `Write`, or in several
all of which but the last have a multiple of 16 bytes) and `Sum` has an empty prefix; for every block cipher `E` with 128-bit blocks and
every nonce.  Missing: the other histories, for which it is false (`C17_gmac_split_violated`, `C17_gmac_prefix_violated`). -/
theorem C17_gmac_partial (E : Bytes → Bytes) (iv : Bytes) (g : Ghash) (hg : GMAC.new 16 E iv = some g) :
    RefinesOn (Permits gmacOk gmacNext 0) impl g { H := GCM.gmac E (gmacIV iv), size := 16, blockSize := 16 } := by
  refine refinesOn_permits_of_sim gmacOk gmacNext 0 impl g _ (fun s k m => k = m.length ∧ Rep E (gmacIV iv) s m m.length) ?_ ?_ ?_ ?_ ?_ ?_
  · exact ⟨rfl, gmac_new_rep E iv g hg⟩
  · rintro s k m p ⟨rfl, h⟩ hok
    have := write_rep h p
    refine ⟨(s.write p).1, ?_, ?_, ?_⟩
    · show some (s.write p) = _; rw [← this.1]
    · rw [List.length_append]; rfl
    · have h2 := this.2
      rw [gmac_believe_ok _ _ hok] at h2
      rw [List.length_append]; exact h2
  · rintro s k m b ⟨rfl, h⟩ hok
    have hb : b = [] := hok
    subst hb
    refine ⟨s, ?_, rfl, h⟩
    show some (s, [] ++ s.tag ++ zeros 0) = some (s, [] ++ GCM.gmac E (gmacIV iv) m)
    rw [tag_eq h, tagWith_length]
    exact congrArg (fun z => some (s, z)) (List.append_nil _)
  · rintro s k m ⟨rfl, h⟩ _; exact ⟨rfl, gmac_reset_rep h⟩
  · rintro s k m h; exact ⟨rfl, fun _ => h⟩
  · rintro s k m h; exact ⟨rfl, fun _ => h⟩

/-- The length that the object believes after the writes `ws`. -/
def gmacBelieved (ws : List Bytes) : Nat :=
  (ws.foldl (fun (st : Nat × Nat) w => (believe st.1 (st.2 % 16) w.length, st.2 + w.length)) (0, 0)).1

/-- Exactly what the object computes, for every sequence of writes: the GMAC of the concatenation, but with the believed length in the
length block. -/
theorem C17_gmac_exact (E : Bytes → Bytes) (iv : Bytes) (g : Ghash) (hg : GMAC.new 16 E iv = some g) (ws : List Bytes) :
    (ws.foldl (fun s w => (Ghash.write s w).1) g).tag = tagWith E (gmacIV iv) ws.flatten (gmacBelieved ws) := by
  apply tag_eq
  unfold gmacBelieved
  suffices h : ∀ (ws : List Bytes) (s : Ghash) (m : Bytes) (n : Nat), Rep E (gmacIV iv) s m n →
      Rep E (gmacIV iv) (ws.foldl (fun s w => (Ghash.write s w).1) s) (m ++ ws.flatten)
        (ws.foldl (fun (st : Nat × Nat) w => (believe st.1 (st.2 % 16) w.length, st.2 + w.length)) (n, m.length)).1 by
    exact h ws g [] 0 (gmac_new_rep E iv g hg)
  intro ws
  induction ws with
  | nil => intro s m n h; rw [List.flatten_nil, List.append_nil]; exact h
  | cons w ws ih =>
    intro s m n h
    have := ih _ _ _ (write_rep h w).2
    rw [List.length_append, List.append_assoc] at this
    exact this

/-- `Sum(b)` returns `len(b)` bytes more than `b` and the tag. -/
theorem C17_gmac_sum_length (E : Bytes → Bytes) (hE : ∀ b, b.length = 16 → (E b).length = 16) (iv : Bytes) (g : Ghash) (hg : GMAC.new 16 E iv = some g)
    (ws : List Bytes) (b : Bytes) : (Ghash.sum (ws.foldl (fun s w => (Ghash.write s w).1) g) b).length = 2 * b.length + 16 := by
  unfold Ghash.sum
  rw [C17_gmac_exact E iv g hg]
  have hJ : ∀ H iv, (GCM.J0 H iv).length = 16 := by
    intro H iv
    unfold GCM.J0
    split
    · rename_i h; rw [List.length_append, h]; rfl
    · rfl
  have : ∀ A n, (tagWith E (gmacIV iv) A n).length = 16 := by
    intro A n
    unfold tagWith
    dsimp only
    rw [List.length_zipWith, hE _ (hJ _ _)]; rfl
  rw [List.length_append, List.length_append, this, zeros_length]; omega

/-- So the contract is false for every cipher and nonce as soon as the prefix is not empty. -/
theorem C17_gmac_prefix_violated (E : Bytes → Bytes) (hE : ∀ b, b.length = 16 → (E b).length = 16) (iv : Bytes) (g : Ghash)
    (hg : GMAC.new 16 E iv = some g) (H : Bytes → Bytes) (hH : ∀ m, (H m).length = 16) :
    ¬ Refines impl g { H := H, size := 16, blockSize := 16 } := by
  intro h
  have h1 := h [.sum [0#8]]
  have h2 := C17_gmac_sum_length E hE iv g hg [] [0#8]
  have e : impl.run g [.sum [0#8]] = [.bytes (g.sum [0#8])] := rfl
  rw [e] at h1
  simp only [HashSpec.run, List.cons.injEq, Out.bytes.injEq, and_true] at h1
  have e2 : (List.foldl (fun s w => (Ghash.write s w).1) g []) = g := rfl
  rw [e2, h1, List.length_append, hH] at h2
  simp at h2

/-- A message in two writes: 5 bytes and 11 bytes do not give the tag of the 16 bytes, for a cipher that is a permutation. -/
theorem C17_gmac_split_violated :
    ∃ E : Bytes → Bytes, (∀ b, b.length = 16 → (E b).length = 16) ∧ (∀ b, b.length = 16 → E (E b) = b) ∧
      ∃ g, GMAC.new 16 E [] = some g ∧
        impl.run g [.write (zeros 5), .write (zeros 11), .sum []] ≠
          HashSpec.run { H := GCM.gmac E (zeros 12), size := 16, blockSize := 16 } [] [.write (zeros 5), .write (zeros 11), .sum []] := by
  have hc : (0x80#8 :: zeros 15).length = 16 := by decide
  refine ⟨addConst (0x80#8 :: zeros 15), fun b hb => by rw [addConst_length _ _ (by omega), hc], fun b hb => addConst_inv _ _ (by omega), _, rfl, ?_⟩
  intro h
  have h2 := C17_gmac_exact (addConst (0x80#8 :: zeros 15)) [] _ rfl [zeros 5, zeros 11]
  have e : ∀ g : Ghash, impl.run g [.write (zeros 5), .write (zeros 11), .sum []] =
    [.wrote (g.write (zeros 5)).2, .wrote ((g.write (zeros 5)).1.write (zeros 11)).2, .bytes ([] ++ ((g.write (zeros 5)).1.write (zeros 11)).1.tag ++ [])] := fun _ => rfl
  rw [e] at h
  simp only [HashSpec.run, List.cons.injEq, Out.bytes.injEq, and_true, List.nil_append, List.append_nil] at h
  have h3 := h.2.2
  simp only [List.foldl_cons, List.foldl_nil] at h2
  rw [h2, ← tagWith_length] at h3
  clear h2 h e
  revert h3
  decide +kernel

/-! Non-vacuity: a cipher, a nonce and a permitted history with two writes. -/
example : ∃ g, GMAC.new 16 (addConst (zeros 16)) (hex "cafebabefacedbaddecaf888") = some g := ⟨_, rfl⟩
example : Permits gmacOk gmacNext 0 [.write (zeros 32), .write (zeros 5), .sum [], .reset, .write [1], .sum []] := by
  refine ⟨Or.inr rfl, Or.inr rfl, rfl, trivial, Or.inr rfl, rfl, trivial⟩
/-! A test: GHASH of test case 2 of the GCM paper (H = AES-128 of zero, one ciphertext block, no data). -/
example : GCM.bytes (GCM.ghash (GCM.block (hex "66e94bd4ef8a2c3b884cfa59ca342b2e"))
    (hex "0388dace60b6a392f328c2b971b2fe78" ++ hex "00000000000000000000000000000080")) = hex "f38cbb1ad69223dcc3457ae5b6b0f885" := by decide +kernel

end Verif.Props
