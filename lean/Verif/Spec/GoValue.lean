/-
Go values and the heap they refer to, for the specification of deep copies: which locations a value
reaches, and when two values in two heaps carry the same exported data.
-/
namespace Verif.GoValue

/-- A map key: a scalar, or a struct of scalars whose fields may be unexported
(`false`).  Pointer, interface and array keys are left out. -/
inductive Key where
  | scalar (n : Nat)
  | struct (fs : List (Bool × Nat))
  deriving DecidableEq

/-- A Go value.  `scalar` stands for every immutable value (numbers, booleans, strings, time.Time);
`zero` is the zero value of its type.  A pointer, slice or map refers to a heap cell;
a slice is a window (offset, length, capacity) on an array cell; a struct lists its fields with their
export flag; `none` is nil. -/
inductive Val where
  | scalar (n : Nat)
  | zero
  | ptr (a : Option Nat)
  | iface (v : Option Val)
  | struct (fs : List (Bool × Val))
  | slice (s : Option (Nat × Nat × Nat × Nat))
  | map (a : Option Nat)
  | array (xs : List Val)

/-- A heap cell: a variable, the backing array of slices, or a map. -/
inductive Cell where
  | one (v : Val)
  | arr (xs : List Val)
  | tbl (es : List (Key × Val))

/-- The heap: the address of a cell is its position. -/
abbrev Heap := List Cell

/-- The locations (mutable cells) reachable from a value. -/
inductive Reach (h : Heap) : Val → Nat → Prop
  | ptr {a} : Reach h (.ptr (some a)) a
  | ptrIn {a w b} (hc : h[a]? = some (.one w)) (hr : Reach h w b) : Reach h (.ptr (some a)) b
  | iface {w b} (hr : Reach h w b) : Reach h (.iface (some w)) b
  | struct {fs x w b} (hm : (x, w) ∈ fs) (hr : Reach h w b) : Reach h (.struct fs) b
  | slice {a off len cap} : Reach h (.slice (some (a, off, len, cap))) a
  | sliceIn {a off len cap xs w b} (hc : h[a]? = some (.arr xs)) (hm : w ∈ xs) (hr : Reach h w b) :
      Reach h (.slice (some (a, off, len, cap))) b
  | map {a} : Reach h (.map (some a)) a
  | mapIn {a es k w b} (hc : h[a]? = some (.tbl es)) (hm : (k, w) ∈ es) (hr : Reach h w b) :
      Reach h (.map (some a)) b
  | array {xs w b} (hm : w ∈ xs) (hr : Reach h w b) : Reach h (.array xs) b

/-- The same exported data: `v` in heap `h` and `v'` in heap `h'`.  Nil stays nil; slices agree in
length, capacity and elements; maps have the same keys with equal values under them; unexported
fields are not compared. -/
inductive Same (h h' : Heap) : Val → Val → Prop
  | scalar {n} : Same h h' (.scalar n) (.scalar n)
  | zero : Same h h' .zero .zero
  | ptrNil : Same h h' (.ptr none) (.ptr none)
  | ptr {a a' w w'} (hc : h[a]? = some (.one w)) (hc' : h'[a']? = some (.one w')) (hs : Same h h' w w') :
      Same h h' (.ptr (some a)) (.ptr (some a'))
  | ifaceNil : Same h h' (.iface none) (.iface none)
  | iface {w w'} (hs : Same h h' w w') : Same h h' (.iface (some w)) (.iface (some w'))
  | struct {fs fs'} (hf : fs.map Prod.fst = fs'.map Prod.fst)
      (hs : ∀ (i : Nat) (w w' : Val), fs[i]? = some (true, w) → fs'[i]? = some (true, w') → Same h h' w w') :
      Same h h' (.struct fs) (.struct fs')
  | sliceNil : Same h h' (.slice none) (.slice none)
  | slice {a a' off off' len cap xs xs'} (hc : h[a]? = some (.arr xs)) (hc' : h'[a']? = some (.arr xs'))
      (hl : off + len ≤ xs.length) (hl' : off' + len ≤ xs'.length)
      (hs : ∀ (i : Nat) (w w' : Val), i < len → xs[off + i]? = some w → xs'[off' + i]? = some w' → Same h h' w w') :
      Same h h' (.slice (some (a, off, len, cap))) (.slice (some (a', off', len, cap)))
  | mapNil : Same h h' (.map none) (.map none)
  | map {a a' es es'} (hc : h[a]? = some (.tbl es)) (hc' : h'[a']? = some (.tbl es'))
      (hk : ∀ k, (es.lookup k).isSome = (es'.lookup k).isSome)
      (hs : ∀ (k : Key) (w w' : Val), es.lookup k = some w → es'.lookup k = some w' → Same h h' w w') :
      Same h h' (.map (some a)) (.map (some a'))
  | array {xs xs'} (hl : xs.length = xs'.length)
      (hs : ∀ (i : Nat) (w w' : Val), xs[i]? = some w → xs'[i]? = some w' → Same h h' w w') :
      Same h h' (.array xs) (.array xs')

/-- A value without references. -/
inductive NoRef : Val → Prop
  | scalar {n} : NoRef (.scalar n)
  | zero : NoRef .zero
  | ptrNil : NoRef (.ptr none)
  | ifaceNil : NoRef (.iface none)
  | iface {w} (h : NoRef w) : NoRef (.iface (some w))
  | struct {fs} (h : ∀ x w, (x, w) ∈ fs → NoRef w) : NoRef (.struct fs)
  | sliceNil : NoRef (.slice none)
  | mapNil : NoRef (.map none)
  | array {xs} (h : ∀ w ∈ xs, NoRef w) : NoRef (.array xs)

/-- A finite (acyclic), well-formed value whose arrays hold no references and whose map keys have
only exported parts. -/
inductive Tame (h : Heap) : Val → Prop
  | scalar {n} : Tame h (.scalar n)
  | zero : Tame h .zero
  | ptrNil : Tame h (.ptr none)
  | ptr {a w} (hc : h[a]? = some (.one w)) (ht : Tame h w) : Tame h (.ptr (some a))
  | ifaceNil : Tame h (.iface none)
  | iface {w} (ht : Tame h w) : Tame h (.iface (some w))
  | struct {fs} (ht : ∀ w, (true, w) ∈ fs → Tame h w) : Tame h (.struct fs)
  | sliceNil : Tame h (.slice none)
  | slice {a off len cap xs} (hc : h[a]? = some (.arr xs)) (hl : off + len ≤ xs.length)
      (ht : ∀ w ∈ (xs.drop off).take len, Tame h w) : Tame h (.slice (some (a, off, len, cap)))
  | mapNil : Tame h (.map none)
  | map {a es} (hc : h[a]? = some (.tbl es)) (hd : (es.map Prod.fst).Nodup)
      (hk : ∀ fs w, (Key.struct fs, w) ∈ es → ∀ f ∈ fs, f.1 = true)
      (ht : ∀ k w, (k, w) ∈ es → Tame h w) : Tame h (.map (some a))
  | array {xs} (hn : ∀ w ∈ xs, NoRef w) : Tame h (.array xs)

end Verif.GoValue
