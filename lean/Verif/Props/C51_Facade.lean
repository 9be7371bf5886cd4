import Verif.Model.Facade
import Verif.Spec.TextCode
/-
C51: the fluent facade of package hash.
-/
namespace Verif.Props
open Verif.Facade Verif.Spec.TextCode

/-! ### The text encodings -/

theorem fromHexChar_eq : ∀ c : Byte, fromHexChar c = hexValue c := by decide +kernel
theorem b64Val_eq : ∀ c : Byte, b64Val c = b64Value c := by decide +kernel
theorem b64Value_pad : b64Value pad = none := by decide +kernel
theorem fromHexChar_hexChar : ∀ v, v < 16 → fromHexChar (hexChar v) = some v := by decide +kernel
theorem b64Val_b64Char : ∀ v, v < 64 → b64Val (b64Char v) = some v := by decide +kernel

/-- Decoding succeeds exactly on hexadecimal text, with the bytes that text denotes. -/
theorem C51_hex_decode (s b : Bytes) : hexDecode s = (b, none) ↔ HexText s b := by
  constructor
  · intro h
    fun_induction hexDecode s generalizing b with
    | case1 p q r hp => cases h
    | case2 p q r a hp hq => cases h
    | case3 p q r a hp b' hq ih =>
      obtain ⟨h1, h2⟩ := Prod.mk.inj h
      subst h1
      have := HexText.cons (p := p) (q := q) (fromHexChar_eq p ▸ hp) (fromHexChar_eq q ▸ hq) (ih _ (Prod.ext rfl h2))
      rw [Nat.mul_comm] at this
      exact this
    | case4 p hp => cases h
    | case5 p a hp => cases h
    | case6 => cases h; exact .nil
  · intro h
    induction h with
    | nil => rfl
    | cons hp hq h ih =>
      rw [hexDecode, fromHexChar_eq, hp]
      simp only
      rw [fromHexChar_eq, hq]
      simp only [ih, Nat.mul_comm]

/-- `FromHexString(ToHexString(x))` gives back the bytes, without an error. -/
theorem hexDecode_encode (b : Bytes) : hexDecode (hexEncode b) = (b, none) := by
  induction b with
  | nil => rfl
  | cons v r ih =>
    have hv := v.isLt
    rw [hexEncode, hexDecode, fromHexChar_hexChar _ (by omega)]
    simp only
    rw [fromHexChar_hexChar _ (by omega)]
    simp only [ih]
    rw [show v.toNat / 16 * 16 + v.toNat % 16 = v.toNat by omega, BitVec.ofNat_toNat, BitVec.setWidth_eq]

theorem beBytes1 (n : Nat) : beBytes 1 n = [BitVec.ofNat 8 n] := by simp [beBytes]
theorem beBytes2 (n : Nat) : beBytes 2 n = [BitVec.ofNat 8 (n / 256), BitVec.ofNat 8 n] := by
  simp [beBytes, List.range_succ]
theorem beBytes3 (n : Nat) : beBytes 3 n = [BitVec.ofNat 8 (n / 65536), BitVec.ofNat 8 (n / 256), BitVec.ofNat 8 n] := by
  simp [beBytes, List.range_succ]

theorem b64DecodeClean_iff (s b : Bytes) : b64DecodeClean s = (b, none) ↔ B64Text s b := by
  constructor
  · intro h
    fun_induction b64DecodeClean s generalizing b with
    | case1 => cases h; exact .nil
    | case2 c d r x y hy hx hz =>
      simp only [Prod.mk.injEq] at h
      obtain ⟨h1, h2⟩ := h
      subst h1
      split at h2
      case isFalse => cases h2
      case isTrue hr =>
        subst hr
        rw [show (x * 262144 + y * 4096) / 65536 = (64 * x + y) / 16 by omega]
        rw [b64Val_eq] at hx hy
        have := B64Text.one hx hy
        rw [beBytes1 ((64 * x + y) / 16)] at this
        exact this
    | case3 => cases h
    | case4 => cases h
    | case5 c d e r x y hy hx z hz hf =>
      simp only [Prod.mk.injEq] at h
      obtain ⟨h1, h2⟩ := h
      subst h1
      split at h2
      case isFalse => cases h2
      case isTrue hr =>
        subst hr
        rw [show (x * 262144 + y * 4096 + z * 64) / 65536 = (4096 * x + 64 * y + z) / 4 / 256 by omega,
          show (x * 262144 + y * 4096 + z * 64) / 256 = (4096 * x + 64 * y + z) / 4 by omega, ← beBytes2]
        rw [b64Val_eq] at hx hy hz
        exact .two hx hy hz
    | case6 => cases h
    | case7 c d e f r x y hy hx z hz w hw ih =>
      simp only [Prod.mk.injEq] at h
      obtain ⟨h1, h2⟩ := h
      subst h1
      rw [b64Val_eq] at hx hy hz hw
      have := B64Text.three hx hy hz hw (ih _ (Prod.ext rfl h2))
      rw [beBytes3, show 262144 * x + 4096 * y + 64 * z + w = x * 262144 + y * 4096 + z * 64 + w by omega] at this
      exact this
    | case8 => cases h
    | case9 => cases h
  · intro h
    induction h with
    | nil => rfl
    | @one c d x y hc hd =>
      rw [← b64Val_eq] at hc hd
      unfold b64DecodeClean
      rw [hc, hd]
      simp only
      rw [show b64Val pad = none from by decide +kernel]
      simp only [pad, if_true, beBytes1]
      rw [show (x * 262144 + y * 4096) / 65536 = (64 * x + y) / 16 by omega]
    | @two c d e x y z hc hd he =>
      rw [← b64Val_eq] at hc hd he
      unfold b64DecodeClean
      rw [hc, hd]
      simp only
      rw [he, show b64Val pad = none from by decide +kernel]
      simp only [pad, if_true, beBytes2]
      rw [show (x * 262144 + y * 4096 + z * 64) / 65536 = (4096 * x + 64 * y + z) / 4 / 256 by omega,
          show (x * 262144 + y * 4096 + z * 64) / 256 = (4096 * x + 64 * y + z) / 4 by omega]
    | @three c d e f x y z w s b hc hd he hf h ih =>
      rw [← b64Val_eq] at hc hd he hf
      rw [b64DecodeClean, hc, hd]
      simp only
      rw [he, hf]
      simp only [ih, beBytes3, List.cons_append, List.nil_append]
      rw [show 262144 * x + 4096 * y + 64 * z + w = x * 262144 + y * 4096 + z * 64 + w by omega]

/-- Decoding succeeds exactly on padded base64 text (line breaks ignored), with the bytes that text denotes. -/
theorem C51_base64_decode (s b : Bytes) : b64Decode s = (b, none) ↔ B64Text (unfold64 s) b := by
  rw [← b64DecodeClean_iff]
  unfold b64Decode unfold64
  rw [show (fun c : Byte => c != 0x0d#8 && c != 0x0a#8) = (fun c => !(c == 0x0a#8 || c == 0x0d#8)) from by
    funext c
    cases h1 : c == 0x0a#8 <;> cases h2 : c == 0x0d#8 <;> simp_all [bne]]

theorem b64DecodeClean_encode (b : Bytes) : b64DecodeClean (b64Encode b) = (b, none) := by
  have hk : b64Val 61#8 = none := by decide +kernel
  have ho : ∀ (v : Byte) (n : Nat), n % 256 = v.toNat → BitVec.ofNat 8 n = v := by
    intro v n h
    apply BitVec.eq_of_toNat_eq
    simpa using h
  fun_induction b64Encode b with
  | case1 => rfl
  | case2 a val =>
    have ha := a.isLt
    unfold b64DecodeClean
    rw [b64Val_b64Char _ (by omega), b64Val_b64Char _ (by omega)]
    simp only [hk, if_true]
    rw [ho a _ (by omega)]
  | case3 a b val =>
    have ha := a.isLt
    have hb := b.isLt
    unfold b64DecodeClean
    rw [b64Val_b64Char _ (by omega), b64Val_b64Char _ (by omega)]
    simp only
    rw [b64Val_b64Char _ (by omega)]
    simp only [hk, if_true]
    rw [ho a _ (by omega), ho b _ (by omega)]
  | case4 a b c r val ih =>
    have ha := a.isLt
    have hb := b.isLt
    have hc := c.isLt
    rw [b64DecodeClean, b64Val_b64Char _ (by omega), b64Val_b64Char _ (by omega)]
    simp only
    rw [b64Val_b64Char _ (by omega), b64Val_b64Char _ (by omega)]
    simp only [ih]
    rw [ho a _ (by omega), ho b _ (by omega), ho c _ (by omega)]

theorem b64Char_keep : ∀ v, v < 64 → (b64Char v != 0x0d#8 && b64Char v != 0x0a#8) = true := by decide +kernel

theorem b64Encode_filter (b : Bytes) :
    (b64Encode b).filter (fun c => c != 0x0d#8 && c != 0x0a#8) = b64Encode b := by
  have hk : ((0x3d#8 : Byte) != 0x0d#8 && (0x3d#8 : Byte) != 0x0a#8) = true := by decide
  rw [List.filter_eq_self]
  fun_induction b64Encode b with
  | case1 => simp
  | case2 a val =>
    have ha := a.isLt
    intro c hc
    simp only [List.mem_cons, List.not_mem_nil, or_false] at hc
    rcases hc with h | h | h | h <;> subst h
    · exact b64Char_keep _ (by omega)
    · exact b64Char_keep _ (by omega)
    · exact hk
    · exact hk
  | case3 a b val =>
    have ha := a.isLt
    have hb := b.isLt
    intro c hc
    simp only [List.mem_cons, List.not_mem_nil, or_false] at hc
    rcases hc with h | h | h | h <;> subst h
    · exact b64Char_keep _ (by omega)
    · exact b64Char_keep _ (by omega)
    · exact b64Char_keep _ (by omega)
    · exact hk
  | case4 a b c r val ih =>
    have ha := a.isLt
    have hb := b.isLt
    have hc' := c.isLt
    intro c hc
    simp only [List.mem_cons] at hc
    rcases hc with h | h | h | h | h
    · subst h; exact b64Char_keep _ (by omega)
    · subst h; exact b64Char_keep _ (by omega)
    · subst h; exact b64Char_keep _ (by omega)
    · subst h; exact b64Char_keep _ (by omega)
    · exact ih c h

theorem b64Decode_encode (b : Bytes) : b64Decode (b64Encode b) = (b, none) := by
  unfold b64Decode
  rw [b64Encode_filter, b64DecodeClean_encode]

/-! ### The facade -/

variable {σ : Type} (I : HashImpl σ) (reg : Nat → Option (Algo σ))

/-- `ToHexString` then `FromHexString` restores the data and leaves no error, whatever the facade held. -/
theorem C51_hex_roundtrip (t u : Facade σ) :
    chain I reg [.fromHexString t.toHexString] u = some { u with data := t.toBytes, err := none } := by
  simp only [chain, Call.run, Facade.toHexString, Facade.toBytes, hexDecode_encode, Option.bind_some]

/-- The same for base64. -/
theorem C51_base64_roundtrip (t u : Facade σ) :
    chain I reg [.fromBase64String t.toBase64String] u = some { u with data := t.toBytes, err := none } := by
  simp only [chain, Call.run, Facade.toBase64String, Facade.toBytes, b64Decode_encode, Option.bind_some]

/-- `FromHexString` sets `Error` exactly on texts that are not hexadecimal, and otherwise loads the
bytes the text denotes. -/
theorem C51_hex_reported (s : Bytes) (u : Facade σ) :
    ∃ t, chain I reg [.fromHexString s] u = some t ∧
      (t.err = none ↔ ∃ b, HexText s b) ∧ ∀ b, HexText s b → t.toBytes = b := by
  refine ⟨_, rfl, ⟨fun h => ⟨_, (C51_hex_decode s _).1 (Prod.ext rfl h)⟩, ?_⟩, ?_⟩
  · rintro ⟨b, hb⟩
    rw [← C51_hex_decode] at hb
    exact congrArg Prod.snd hb
  · intro b hb
    rw [← C51_hex_decode] at hb
    exact congrArg Prod.fst hb

/-- `FromBase64String` sets `Error` exactly on texts that are not base64. -/
theorem C51_base64_reported (s : Bytes) (u : Facade σ) :
    ∃ t, chain I reg [.fromBase64String s] u = some t ∧
      (t.err = none ↔ ∃ b, B64Text (unfold64 s) b) ∧ ∀ b, B64Text (unfold64 s) b → t.toBytes = b := by
  refine ⟨_, rfl, ⟨fun h => ⟨_, (C51_base64_decode s _).1 (Prod.ext rfl h)⟩, ?_⟩, ?_⟩
  · rintro ⟨b, hb⟩
    rw [← C51_base64_decode] at hb
    exact congrArg Prod.snd hb
  · intro b hb
    rw [← C51_base64_decode] at hb
    exact congrArg Prod.fst hb

/-- The calls that never touch an error set earlier (they may only replace it by another). -/
def Keeps : Call σ → Prop
  | .fromHexString _ | .fromBase64String _ | .digestHex _ | .funcHash _ => False
  | .sumBy name => reg name = none
  | .newBy name => reg name = none
  | .newErr _ e => e ≠ none
  | _ => True

theorem run_keeps {c : Call σ} (hc : Keeps reg c) {t u : Facade σ} (h : c.run I reg t = some u)
    (he : t.err ≠ none) : u.err ≠ none := by
  cases c with
  | fromBytes p => cases h; exact he
  | fromHexString s => exact hc.elim
  | fromBase64String s => exact hc.elim
  | fromReader p e => cases e <;> cases h <;> simp_all
  | digest f => cases h; exact he
  | digestHex f => exact hc.elim
  | digestErr f => cases f <;> cases h <;> simp_all
  | checksum s =>
    simp only [Call.run, Option.bind_eq_bind, Option.bind_eq_some_iff] at h
    obtain ⟨_, _, _, _, h⟩ := h
    cases h; exact he
  | funcHash f => exact hc.elim
  | sumBy n =>
    simp only [Keeps] at hc
    simp only [Call.run, hc] at h
    cases h; simp
  | newHash s => cases h; exact he
  | newBy n =>
    simp only [Keeps] at hc
    simp only [Call.run, hc] at h
    cases h; simp
  | newErr s e => cases h; exact hc
  | write p =>
    simp only [Call.run, Option.bind_eq_bind, Option.bind_eq_some_iff] at h
    obtain ⟨_, _, _, _, h⟩ := h
    cases h; exact he
  | writeReader p e =>
    simp only [Call.run, Option.bind_eq_bind, Option.bind_eq_some_iff] at h
    obtain ⟨_, _, _, _, h⟩ := h
    cases e <;> cases h
    · exact he
    · simp
  | sum b =>
    simp only [Call.run, Option.bind_eq_bind, Option.bind_eq_some_iff] at h
    obtain ⟨_, _, _, _, h⟩ := h
    cases h; exact he
  | reset =>
    simp only [Call.run, Option.bind_eq_bind, Option.bind_eq_some_iff] at h
    obtain ⟨_, _, h⟩ := h
    cases h; exact he

/-- Partial: an error stays visible through every chain of the calls that do not assign `Error`
unconditionally (`FromBytes`, `FromReader`, `MD5()` and its siblings, `Checksum`, `NewHash`, `Write`,
`Sum`, `Reset`, an unknown `SumBy`/`NewBy`, ...).  Missing: the other calls, which
`C51_error_cleared_violated` refutes. -/
theorem C51_error_kept_partial (cs : List (Call σ)) (hcs : ∀ c ∈ cs, Keeps reg c) (t u : Facade σ)
    (h : chain I reg cs t = some u) (he : t.err ≠ none) : u.err ≠ none := by
  induction cs generalizing t with
  | nil => cases h; exact he
  | cons c cs ih =>
    simp only [chain, Option.bind_eq_some_iff] at h
    obtain ⟨v, hv, h⟩ := h
    exact ih (fun c hc => hcs c (List.mem_cons_of_mem _ hc)) v h (run_keeps I reg (hcs c List.mem_cons_self) hv he)

/-- A malformed text followed by such calls is never reported as a success. -/
theorem C51_malformed_reported_partial (s : Bytes) (hs : ¬ ∃ b, HexText s b) (cs : List (Call σ))
    (hcs : ∀ c ∈ cs, Keeps reg c) (t u : Facade σ) (h : chain I reg (.fromHexString s :: cs) t = some u) :
    u.err ≠ none := by
  obtain ⟨v, hv, h1, -⟩ := C51_hex_reported I reg s t
  have hd : ∀ (c : Call σ) (cs : List (Call σ)) (t v : Facade σ), chain I reg [c] t = some v →
      chain I reg (c :: cs) t = chain I reg cs v := by
    intro c cs t v h
    simp only [chain, Option.bind_eq_some_iff] at h ⊢
    obtain ⟨w, hw, h⟩ := h
    cases h
    rw [hw, Option.bind_some]
  rw [hd _ _ _ _ hv] at h
  exact C51_error_kept_partial I reg cs hcs v u h (fun h0 => hs (h1.1 h0))

/-- Violation: every text that is not hexadecimal, followed by `SumBy` of any registered algorithm
that succeeds, delivers a digest (of the bytes decoded before the error) with `Error == nil`. -/
theorem C51_error_cleared_violated (s : Bytes) (hs : ¬ ∃ b, HexText s b) (name : Nat) (a : Algo σ)
    (hn : reg name = some a) (ha : ∀ m, (a.sum m).2 = none) (t : Facade σ) :
    ∃ v u, chain I reg [.fromHexString s] t = some v ∧ v.err ≠ none ∧
      chain I reg [.fromHexString s, .sumBy name] t = some u ∧ u.err = none ∧ u.toBytes = (a.sum v.toBytes).1 := by
  obtain ⟨v, hv, h1, -⟩ := C51_hex_reported I reg s t
  have h2 : v.err ≠ none := fun h0 => hs (h1.1 h0)
  cases hv
  exact ⟨_, { t with data := (a.sum (hexDecode s).1).1, err := (a.sum (hexDecode s).1).2 }, rfl, h2,
    by simp only [chain, Call.run, hn, Option.bind_some], ha _, rfl⟩

/-- A concrete instance: `FromHexString("61zz").SumBy(m)` hashes the single byte `a`. -/
example : ∃ u, chain (σ := Unit) ⟨fun _ _ => none, fun _ _ => none, id, fun _ => 0, fun _ => 0⟩
    (fun _ => some { sum := fun m => (m ++ m, none), new := (none, none) })
    [.fromHexString (ascii "61zz"), .sumBy 2] newFacade = some u ∧ u.err = none ∧ u.data = ascii "aa" := by
  refine ⟨_, rfl, by decide +kernel, by decide +kernel⟩

/-- An error from a failed `SumBy` is forgotten by the next successful one. -/
theorem C51_unknown_mode_forgotten_violated (name name' : Nat) (a : Algo σ) (hn : reg name = none)
    (hn' : reg name' = some a) (ha : ∀ m, (a.sum m).2 = none) (t : Facade σ) :
    ∃ u, chain I reg [.sumBy name, .sumBy name'] t = some u ∧ u.err = none := by
  simp only [chain, Call.run, hn, hn', Option.bind_some]
  exact ⟨_, rfl, ha _⟩

/-- The streaming half of the facade: for every digest that satisfies the hash contract, every way of
dividing a message among `Write` calls, and every prefix, the chain
`New().NewHash(h).Write(p₁)...Write(pₙ).Sum(b)` yields `b` followed by the digest of the concatenation. -/
theorem C51_stream (S : HashSpec) (h₀ : σ) (hr : Refines I h₀ S) (ps : List Bytes) (b : Bytes) :
    ∃ u, chain I reg (.newHash h₀ :: (ps.map .write ++ [.sum b])) newFacade = some u ∧
      u.toBytes = b ++ S.H ps.flatten ∧ u.err = none := by
  have key : ∀ (ps : List Bytes) (s : σ) (m : Bytes) (d : Bytes),
      I.run s (ps.map .write ++ [.sum b]) = S.run m (ps.map .write ++ [.sum b]) →
      ∃ u, chain I reg (ps.map .write ++ [.sum b]) { data := d, hash := some s, err := none } = some u ∧
        u.data = b ++ S.H (m ++ ps.flatten) ∧ u.err = none := by
    intro ps
    induction ps with
    | nil =>
      intro s m d h
      simp only [List.map_nil, List.nil_append, HashImpl.run, HashSpec.run] at h
      cases e : I.sum s b with
      | none => rw [e] at h; simp at h
      | some x =>
        obtain ⟨s', r⟩ := x
        rw [e] at h
        simp only [List.cons.injEq, Out.bytes.injEq, and_true] at h
        refine ⟨{ data := r, hash := some s', err := none }, ?_, ?_, rfl⟩
        · simp only [List.map_nil, List.nil_append, chain, Call.run, Option.bind_eq_bind, Option.bind_some, e]
        · simp only [List.flatten_nil, List.append_nil, h]
    | cons p ps ih =>
      intro s m d h
      simp only [List.map_cons, List.cons_append, HashImpl.run, HashSpec.run] at h
      cases e : I.write s p with
      | none => rw [e] at h; simp at h
      | some x =>
        obtain ⟨s', n⟩ := x
        rw [e] at h
        simp only [List.cons.injEq] at h
        obtain ⟨u, hu, h1, h2⟩ := ih s' (m ++ p) d h.2
        refine ⟨u, ?_, ?_, h2⟩
        · simp only [List.map_cons, List.cons_append, chain, Call.run, Option.bind_eq_bind, Option.bind_some, e]
          exact hu
        · rw [h1, List.flatten_cons, List.append_assoc]
  obtain ⟨u, hu, h1, h2⟩ := key ps h₀ [] [] (hr _)
  refine ⟨u, ?_, ?_, h2⟩
  · simp only [chain, Call.run, Option.bind_some, newFacade]
    exact hu
  · rw [Facade.toBytes, h1, List.nil_append]

/-- The one-shot half: `FromBytes(m).Checksum(h)` is the digest of `m`. -/
theorem C51_checksum (S : HashSpec) (h₀ : σ) (hr : Refines I h₀ S) (m : Bytes) (t : Facade σ) :
    chain I reg [.fromBytes m, .checksum h₀] t = some { t with data := S.H m } := by
  have h := hr [.write m, .sum []]
  simp only [HashImpl.run, HashSpec.run] at h
  simp only [chain, Call.run, Option.bind_some, Option.bind_eq_bind]
  cases e : I.write h₀ m with
  | none => rw [e] at h; simp at h
  | some x =>
    obtain ⟨s', n⟩ := x
    rw [e] at h
    simp only [List.cons.injEq] at h
    obtain ⟨-, h⟩ := h
    simp only [Option.bind_some]
    cases e2 : I.sum s' [] with
    | none => rw [e2] at h; simp at h
    | some y =>
      obtain ⟨s2, r⟩ := y
      rw [e2] at h
      simp only [List.cons.injEq, Out.bytes.injEq, List.nil_append, and_true] at h
      simp only [Option.bind_some, h]

/-- Using a facade without a digest object panics. -/
theorem C51_no_hash_panics (t : Facade σ) (h : t.hash = none) (p : Bytes) :
    chain I reg [.write p] t = none ∧ chain I reg [.sum p] t = none ∧ chain I reg [.reset] t = none := by
  simp [chain, Call.run, h]

-- tests
example : hexEncode (ascii "Go!") = ascii "476f21" := by decide +kernel
example : b64Encode (ascii "light work.") = ascii "bGlnaHQgd29yay4=" := by decide +kernel
example : b64Encode (ascii "light w") = ascii "bGlnaHQgdw==" := by decide +kernel
example : HexText (ascii "4A6f") (ascii "Jo") := (C51_hex_decode _ _).1 (by decide +kernel)
example : ¬ ∃ b, HexText (ascii "61zz") b := by
  rintro ⟨b, hb⟩
  rw [← C51_hex_decode] at hb
  have : (hexDecode (ascii "61zz")).2 = none := congrArg Prod.snd hb
  revert this
  decide +kernel
example : B64Text (unfold64 (ascii "bGln\naHQ=")) (ascii "light") := (C51_base64_decode _ _).1 (by decide +kernel)

end Verif.Props
