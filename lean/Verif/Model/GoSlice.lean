import Verif.Basic
/-
Go slices of the caller's memory, with capacity, and `append` as the Go specification has it: used for the places where a function of
/repo appends to a slice its caller passed (makwa/makwa.go:167, md6/digest.go:41-43).
-/
namespace Verif.GoSlice

/-- A slice of the caller's memory: `mem[off : off+len]` with capacity `cap`. -/
structure Slice where
  off : Nat
  len : Nat
  cap : Nat

/-- The contents of a slice. -/
def Slice.get (s : Slice) (mem : Bytes) : Bytes := (mem.drop s.off).take s.len

/-- The slice lies in the memory. -/
def Slice.Valid (s : Slice) (mem : Bytes) : Prop := s.len ≤ s.cap ∧ s.off + s.cap ≤ mem.length

/-- A slice value: storage nobody else has, or a slice of the caller's memory. -/
inductive Buf where
  | own (b : Bytes)
  | ref (s : Slice)

/-- The contents. -/
def Buf.get (b : Buf) (mem : Bytes) : Bytes := match b with
  | .own b => b
  | .ref s => s.get mem

/-- Go's `append(b, p...)`: in place if the capacity suffices, else into new storage (whose spare capacity nobody sees). -/
def append (mem : Bytes) (b : Buf) (p : Bytes) : Bytes × Buf := match b with
  | .own d => (mem, .own (d ++ p))
  | .ref s => if s.len + p.length ≤ s.cap then (goCopy mem (s.off + s.len) p, .ref { s with len := s.len + p.length })
    else (mem, .own (s.get mem ++ p))

end Verif.GoSlice
