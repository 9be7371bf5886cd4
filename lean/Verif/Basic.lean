/-
Basic vocabulary shared by the models: bytes, Go's `copy`, byte-order conversions,
rotations, and the division of a message into blocks.
-/
namespace Verif

/-- Go `byte` / `uint8`. -/
abbrev Byte := BitVec 8
/-- Go `[]byte` (contents only; aliasing is modelled explicitly where it matters). -/
abbrev Bytes := List Byte
/-- Go `uint32`. -/
abbrev U32 := BitVec 32
/-- Go `uint64`. -/
abbrev U64 := BitVec 64

/-- Go's `copy(dst[off:], src)`: the new contents of `dst`.
The Go expression panics when `off > len(dst)`; every use in the models has `off ≤ len(dst)`. -/
def goCopy {α} (dst : List α) (off : Nat) (src : List α) : List α :=
  dst.take off ++ src.take (dst.length - off) ++ dst.drop (off + src.length)

/-- `n` zero bytes (Go `make([]byte, n)`). -/
def zeros (n : Nat) : Bytes := List.replicate n 0#8

/-- `encoding/binary.BigEndian.PutUint32`. -/
def be32 (w : U32) : Bytes :=
  [w.extractLsb' 24 8, w.extractLsb' 16 8, w.extractLsb' 8 8, w.extractLsb' 0 8]
/-- `encoding/binary.LittleEndian.PutUint32`. -/
def le32 (w : U32) : Bytes :=
  [w.extractLsb' 0 8, w.extractLsb' 8 8, w.extractLsb' 16 8, w.extractLsb' 24 8]
/-- `encoding/binary.BigEndian.PutUint64`. -/
def be64 (w : U64) : Bytes :=
  [w.extractLsb' 56 8, w.extractLsb' 48 8, w.extractLsb' 40 8, w.extractLsb' 32 8,
   w.extractLsb' 24 8, w.extractLsb' 16 8, w.extractLsb' 8 8, w.extractLsb' 0 8]
/-- `encoding/binary.LittleEndian.PutUint64`. -/
def le64 (w : U64) : Bytes :=
  [w.extractLsb' 0 8, w.extractLsb' 8 8, w.extractLsb' 16 8, w.extractLsb' 24 8,
   w.extractLsb' 32 8, w.extractLsb' 40 8, w.extractLsb' 48 8, w.extractLsb' 56 8]

/-- Byte `i` of a slice.  Go panics past the end; the models only index inside the slice. -/
def at8 (b : Bytes) (i : Nat) : Byte := b.getD i 0#8

/-- `encoding/binary.BigEndian.Uint32(b[i:])`. -/
def getBE32 (b : Bytes) (i : Nat := 0) : U32 :=
  at8 b i ++ at8 b (i+1) ++ at8 b (i+2) ++ at8 b (i+3)
/-- `encoding/binary.LittleEndian.Uint32(b[i:])`. -/
def getLE32 (b : Bytes) (i : Nat := 0) : U32 :=
  at8 b (i+3) ++ at8 b (i+2) ++ at8 b (i+1) ++ at8 b i
/-- `encoding/binary.BigEndian.Uint64(b[i:])`. -/
def getBE64 (b : Bytes) (i : Nat := 0) : U64 :=
  at8 b i ++ at8 b (i+1) ++ at8 b (i+2) ++ at8 b (i+3) ++
  at8 b (i+4) ++ at8 b (i+5) ++ at8 b (i+6) ++ at8 b (i+7)
/-- `encoding/binary.LittleEndian.Uint64(b[i:])`. -/
def getLE64 (b : Bytes) (i : Nat := 0) : U64 :=
  at8 b (i+7) ++ at8 b (i+6) ++ at8 b (i+5) ++ at8 b (i+4) ++
  at8 b (i+3) ++ at8 b (i+2) ++ at8 b (i+1) ++ at8 b i

/-- Go's `for j := a; j < b; j++ { body }`. -/
def forLoop {σ} (a b : Nat) (body : σ → Nat → σ) (s : σ) : σ :=
  (List.range' a (b - a)).foldl body s

/-- Parse a hexadecimal digit (used only to write test vectors readably). -/
def hexDigit (c : Char) : Nat :=
  if '0' ≤ c ∧ c ≤ '9' then c.toNat - '0'.toNat
  else if 'a' ≤ c ∧ c ≤ 'f' then c.toNat - 'a'.toNat + 10
  else if 'A' ≤ c ∧ c ≤ 'F' then c.toNat - 'A'.toNat + 10 else 0
/-- Bytes from hexadecimal characters (test vectors only). -/
def ofHexChars : List Char → Bytes
  | a :: b :: r => BitVec.ofNat 8 (16 * hexDigit a + hexDigit b) :: ofHexChars r
  | _ => []
/-- Bytes from a hexadecimal string (test vectors only). -/
def hex (s : String) : Bytes := ofHexChars s.toList
/-- Bytes of an ASCII string (test vectors only). -/
def ascii (s : String) : Bytes := s.toList.map fun c => BitVec.ofNat 8 c.toNat

/-- The complete `B`-byte blocks of a message, in order. -/
def fullBlocks (B : Nat) (m : List α) : List (List α) :=
  (List.range (m.length / B)).map fun i => (m.drop (i * B)).take B

/-- What remains after the complete `B`-byte blocks. -/
def restBlock (B : Nat) (m : List α) : List α := m.drop (m.length / B * B)

/-! ### Lemmas -/

theorem goCopy_length {α} (dst : List α) (off : Nat) (src : List α) (h : off ≤ dst.length) :
    (goCopy dst off src).length = dst.length := by
  simp [goCopy]; omega

theorem goCopy_take {α} (dst : List α) (off : Nat) (src : List α)
    (h : off + src.length ≤ dst.length) :
    (goCopy dst off src).take (off + src.length) = dst.take off ++ src := by
  have h1 : src.take (dst.length - off) = src := List.take_of_length_le (by omega)
  have h2 : (dst.take off ++ src).length = off + src.length := by simp; omega
  unfold goCopy
  rw [h1, ← h2, List.take_left]

theorem goCopy_full {α} (dst : List α) (off : Nat) (src : List α)
    (_h0 : off ≤ dst.length) (h : dst.length ≤ off + src.length) :
    goCopy dst off src = dst.take off ++ src.take (dst.length - off) := by
  have : dst.drop (off + src.length) = [] := List.drop_eq_nil_of_le h
  simp [goCopy, this]

theorem fullBlocks_nil {α} (B : Nat) : fullBlocks B ([] : List α) = [] := by
  simp [fullBlocks]

theorem fullBlocks_lt {α} (B : Nat) (m : List α) (h : m.length < B) : fullBlocks B m = [] := by
  simp [fullBlocks, Nat.div_eq_of_lt h]

theorem restBlock_lt {α} (B : Nat) (m : List α) (h : m.length < B) : restBlock B m = m := by
  simp [restBlock, Nat.div_eq_of_lt h]

theorem fullBlocks_append {α} (B : Nat) (a b : List α) (hB : 0 < B) (ha : a.length % B = 0) :
    fullBlocks B (a ++ b) = fullBlocks B a ++ fullBlocks B b := by
  obtain ⟨k, hk⟩ := Nat.dvd_of_mod_eq_zero ha
  have hlen : (a ++ b).length / B = k + b.length / B := by
    rw [List.length_append, hk, Nat.mul_add_div hB]
  have hka : a.length / B = k := by rw [hk, Nat.mul_div_cancel_left _ hB]
  unfold fullBlocks
  rw [hlen, hka, List.range_add, List.map_append, List.map_map]
  congr 1
  · apply List.map_congr_left
    intro i hi
    have hi : i < k := List.mem_range.mp hi
    have h1 : i * B + B ≤ a.length := by
      rw [hk, Nat.mul_comm B k]
      calc i * B + B = (i+1) * B := by rw [Nat.add_mul, Nat.one_mul]
        _ ≤ k * B := Nat.mul_le_mul_right _ hi
    rw [List.drop_append_of_le_length (by omega), List.take_append_of_le_length (by simp; omega)]
  · apply List.map_congr_left
    intro i _
    simp only [Function.comp]
    have : (k + i) * B = a.length + i * B := by rw [hk, Nat.add_mul, Nat.mul_comm k B]
    rw [this, ← List.drop_drop, List.drop_left]

theorem restBlock_append {α} (B : Nat) (a b : List α) (hB : 0 < B) (ha : a.length % B = 0) :
    restBlock B (a ++ b) = restBlock B b := by
  obtain ⟨k, hk⟩ := Nat.dvd_of_mod_eq_zero ha
  unfold restBlock
  have hlen : (a ++ b).length / B * B = a.length + b.length / B * B := by
    rw [List.length_append, hk, Nat.mul_add_div hB, Nat.add_mul, Nat.mul_comm k B]
  rw [hlen, ← List.drop_drop, List.drop_left]

theorem fullBlocks_one {α} (B : Nat) (a : List α) (hB : 0 < B) (ha : a.length = B) :
    fullBlocks B a = [a] := by
  have h : a.length / B = 1 := by rw [ha]; exact Nat.div_self hB
  simp [fullBlocks, h, List.range_succ, List.take_of_length_le (Nat.le_of_eq ha)]

theorem restBlock_length {α} (B : Nat) (m : List α) : (restBlock B m).length = m.length % B := by
  have := Nat.mod_add_div m.length B
  have h2 : m.length / B * B = B * (m.length / B) := Nat.mul_comm _ _
  simp [restBlock]; omega

theorem fullBlocks_length {α} (B : Nat) (m : List α) : (fullBlocks B m).length = m.length / B := by
  simp [fullBlocks]

/-- A message is its full blocks followed by the rest. -/
theorem fullBlocks_flatten {α} (B : Nat) (m : List α) :
    (fullBlocks B m).flatten = m.take (m.length / B * B) := by
  unfold fullBlocks
  have : ∀ n, n * B ≤ m.length →
      ((List.range n).map fun i => (m.drop (i * B)).take B).flatten = m.take (n * B) := by
    intro n
    induction n with
    | zero => simp
    | succ n ih =>
      intro h
      have e : (n+1) * B = n * B + B := by rw [Nat.add_mul, Nat.one_mul]
      rw [List.range_succ, List.map_append, List.flatten_append, ih (by omega)]
      simp only [List.map_cons, List.map_nil, List.flatten_cons, List.flatten_nil, List.append_nil]
      rw [e, List.take_add]
  exact this _ (Nat.div_mul_le_self _ _)

theorem fullBlocks_flatten_append_rest {α} (B : Nat) (m : List α) :
    (fullBlocks B m).flatten ++ restBlock B m = m := by
  rw [fullBlocks_flatten, restBlock, List.take_append_drop]

theorem mem_fullBlocks_length {α} (B : Nat) (m : List α) (b : List α) (h : b ∈ fullBlocks B m) :
    b.length = B := by
  simp only [fullBlocks, List.mem_map, List.mem_range] at h
  obtain ⟨i, hi, rfl⟩ := h
  have h1 : (i + 1) * B ≤ m.length / B * B := Nat.mul_le_mul_right _ hi
  have h2 := Nat.div_mul_le_self m.length B
  have e : (i+1) * B = i * B + B := by rw [Nat.add_mul, Nat.one_mul]
  simp; omega

/-- Loop invariants. -/
theorem forLoop_inv {σ} (P : Nat → σ → Prop) {a b : Nat} {body : σ → Nat → σ} {s : σ}
    (hab : a ≤ b) (h0 : P a s)
    (hstep : ∀ j s, a ≤ j → j < b → P j s → P (j+1) (body s j)) :
    P b (forLoop a b body s) := by
  obtain ⟨n, rfl⟩ := Nat.exists_eq_add_of_le hab
  have : ∀ k, k ≤ n → P (a + k) ((List.range' a k).foldl body s) := by
    intro k
    induction k with
    | zero => intro _; simpa using h0
    | succ k ih =>
      intro hk
      rw [List.range'_concat, List.foldl_append]
      have := hstep (a + k) _ (by omega) (by omega) (ih (by omega))
      simpa [Nat.add_assoc] using this
  simpa [forLoop] using this n (Nat.le_refl _)

theorem forLoop_nil {σ} (a b : Nat) (body : σ → Nat → σ) (s : σ) (h : b ≤ a) :
    forLoop a b body s = s := by
  have : b - a = 0 := by omega
  simp [forLoop, this]

theorem forLoop_succ {σ} (a b : Nat) (body : σ → Nat → σ) (s : σ) (h : a ≤ b) :
    forLoop a (b+1) body s = body (forLoop a b body s) b := by
  have : b + 1 - a = (b - a) + 1 := by omega
  simp only [forLoop]
  rw [this, List.range'_concat, List.foldl_append]
  have : a + 1 * (b - a) = b := by omega
  rw [this]; rfl

theorem getD_set {α} (l : List α) (i j : Nat) (a d : α) :
    (l.set i a).getD j d = if i = j ∧ j < l.length then a else l.getD j d := by
  simp only [List.getD_eq_getElem?_getD, List.getElem?_set]
  by_cases h : i = j
  · subst h
    by_cases h2 : i < l.length <;> simp [h2]
  · simp [h]

theorem forLoop_cons {σ} (a b : Nat) (body : σ → Nat → σ) (s : σ) (h : a < b) :
    forLoop a b body s = forLoop (a+1) b body (body s a) := by
  have : b - a = (b - (a+1)) + 1 := by omega
  simp only [forLoop]
  rw [this, List.range'_succ, List.foldl_cons]

/-- Run through a list with an accumulator that is the last element written. -/
def accum {α} (g : Nat → α → α → α) : Nat → α → List α → List α × α
  | _, t, [] => ([], t)
  | i, t, x :: xs =>
    let y := g i t x
    let r := accum g (i+1) y xs
    (y :: r.1, r.2)

/-- A loop that overwrites an array from left to right. -/
theorem forLoop_accum {α} (g : Nat → α → α → α) (d : α) (l : List α) : ∀ (pre : List α) (t : α),
    forLoop pre.length (pre.length + l.length) (fun (st : List α × α) j =>
      (st.1.set j (g j st.2 (st.1.getD j d)), (st.1.set j (g j st.2 (st.1.getD j d))).getD j d))
      (pre ++ l, t) = (pre ++ (accum g pre.length t l).1, (accum g pre.length t l).2) := by
  induction l with
  | nil => intro pre t; rw [forLoop_nil _ _ _ _ (by simp)]; simp [accum]
  | cons x l ih =>
    intro pre t
    rw [forLoop_cons _ _ _ _ (by simp)]
    have h1 : (pre ++ x :: l).getD pre.length d = x := by simp
    have h2 : ∀ y, (pre ++ x :: l).set pre.length y = (pre ++ [y]) ++ l := by intro y; simp
    have h3 : ∀ y, ((pre ++ [y]) ++ l).getD pre.length d = y := by intro y; simp
    simp only [h1, h2, h3]
    have := ih (pre ++ [g pre.length t x]) (g pre.length t x)
    simp only [List.length_append, List.length_cons, List.length_nil, Nat.zero_add] at this
    rw [show pre.length + (x :: l).length = pre.length + 1 + l.length by simp; omega, this]
    simp [accum]

/-- A loop over the entries of a list. -/
theorem foldl_eq_forLoop {σ α} (l : List α) (d : α) (f : σ → α → σ) (s : σ) :
    l.foldl f s = forLoop 0 l.length (fun s j => f s (l.getD j d)) s := by
  induction l generalizing s with
  | nil => rfl
  | cons a l ih =>
    rw [List.foldl_cons, ih]
    simp only [forLoop, Nat.sub_zero, List.length_cons, List.range'_succ, List.foldl_cons]
    have e : List.range' (0 + 1) l.length = (List.range' 0 l.length).map (1 + ·) := by
      rw [List.map_add_range']
    rw [e, List.foldl_map]
    simp [Nat.add_comm 1]

@[simp] theorem be32_length (w) : (be32 w).length = 4 := rfl
@[simp] theorem le32_length (w) : (le32 w).length = 4 := rfl
@[simp] theorem be64_length (w) : (be64 w).length = 8 := rfl
@[simp] theorem le64_length (w) : (le64 w).length = 8 := rfl
@[simp] theorem zeros_length (n) : (zeros n).length = n := by simp [zeros]

end Verif
