import Verif.Model.Rabin
/-
Model of rabin/chunker.go.  Stream positions (`uint64`) are natural numbers: streams of less than
2^63 bytes.
-/
namespace Verif.Chunker
open Verif.Rabin (Table)

/-- The errors that occur: `io.EOF`, `errReadZero` (chunker.go:7-11), any other error of the reader. -/
inductive Err where
  | eof | readZero | other
  deriving DecidableEq, Repr

/-- One answer of an `io.Reader`: at most `k` bytes, or a failure. -/
inductive Ans where
  | data (k : Nat)
  | fail
  deriving DecidableEq, Repr

/-- An `io.Reader` serving `data`: `sched` says how it answers the next calls (as much as asked when
it is used up), `eager` whether it returns `io.EOF` together with the last bytes (permitted by
`io.Reader`) or with the following call, `disc` whether it implements `Discarder`
(chunker.go:14-21). -/
structure Reader where
  data : Bytes
  sched : List Ans
  eager : Bool
  disc : Bool

/-- The part of `Read` common to all answers. -/
def Reader.deliver (r : Reader) (k : Nat) : Reader × Bytes × Option Err :=
  if r.data = [] then (r, [], some .eof)
  else
    let c := r.data.take k
    ({ r with data := r.data.drop k }, c,
      if r.eager = true ∧ r.data.length ≤ k then some .eof else none)
/-- `r.Read(buf)` with `len(buf) = n`. -/
def Reader.read (r : Reader) (n : Nat) : Reader × Bytes × Option Err :=
  match r.sched with
  | [] => r.deliver n
  | .fail :: s => ({ r with sched := s }, [], some .other)
  | .data k :: s => ({ r with sched := s } : Reader).deliver (min k n)
/-- `d.Discard(n)` -/
def Reader.discard (r : Reader) (n : Nat) : Reader × Nat × Option Err :=
  ({ r with data := r.data.drop n }, min n r.data.length, if r.data.length < n then some .eof else none)

/-- rabin/chunker.go:27-49 -/
structure Chunker where
  tab : Table
  r : Reader
  buf : Bytes
  head : Nat
  tail : Nat
  minBytes : Nat
  maxBytes : Nat
  hashMask : U64
  ioErr : Option Err

/-- rabin/chunker.go:86-93, the loop that doubles the buffer until it holds two windows; the first
argument bounds the number of iterations. -/
def logBufSize : Nat → Nat → Nat → Nat
  | 0, _, log => log
  | fuel + 1, window, log => if 2 ^ log < window * 2 then logBufSize fuel window (log + 1) else log

/-- rabin/chunker.go:72-101 `NewChunker`; `none` is a panic. -/
def newChunker (table : Table) (r : Reader) (minBytes : Int) (avgBytes : U64) (maxBytes : Int) : Option Chunker :=
  if table.window ≤ 0 then none
  else if table.window > minBytes then none
  else if maxBytes < minBytes then none
  else if avgBytes &&& (avgBytes - 1) ≠ 0 then none
  else some {
    tab := table, r := r, buf := zeros (2 ^ logBufSize table.window.toNat table.window.toNat 10)
    head := 0, tail := 0
    minBytes := minBytes.toNat, maxBytes := maxBytes.toNat
    hashMask := avgBytes - 1
    ioErr := none }

/-- rabin/chunker.go:112-115 `Reset` -/
def reset (c : Chunker) : Chunker := { c with head := 0, tail := 0, ioErr := none }

/-- rabin/chunker.go:250-279 `more` -/
def more (c : Chunker) : Chunker × Option Err :=
  match c.ioErr with
  | some e => (c, some e)
  | none =>
    let bufMask := c.buf.length - 1
    let wtail := c.tail &&& bufMask
    let whead := c.head &&& bufMask
    let len := if whead ≤ wtail then c.buf.length - wtail else whead - wtail
    let (r, x, err) := c.r.read len
    let c := { c with r := r, buf := goCopy c.buf wtail x }
    if 0 < x.length then ({ c with tail := c.tail + x.length, ioErr := err }, none)
    else
      let err := err.getD .readZero
      ({ c with ioErr := some err }, some err)

/-- rabin/chunker.go:230-246 `discard`, the loop over `Read`.  The first argument bounds the number of
iterations: every answer without error either has a byte or uses up an entry of the schedule. -/
def discardLoop : Nat → Chunker → Nat → Chunker × Option Err
  | 0, c, _ => (c, none)
  | fuel + 1, c, n =>
    if 0 < n then
      let (r, x, err) := c.r.read (min c.buf.length n)
      let c := { c with r := r, buf := goCopy c.buf 0 x, tail := c.tail + x.length }
      match err with
      | some e => ({ c with ioErr := some e }, some e)
      | none => discardLoop fuel c (n - x.length)
    else (c, none)

/-- rabin/chunker.go:212-246 `discard` -/
def discard (c : Chunker) (n : Nat) : Chunker × Option Err :=
  match c.ioErr with
  | some e => (c, some e)
  | none =>
    if c.r.disc = true then
      let (r, m, err) := c.r.discard n
      ({ c with r := r, tail := c.tail + m, ioErr := err }, err)
    else discardLoop (n + c.r.sched.length) c n

/-- rabin/chunker.go:144-152, the loop that fills the first window.  The first argument bounds the
number of iterations: a successful `more` makes the tail grow. -/
def prime : Nat → Chunker → Nat → Chunker × Option Err
  | 0, c, _ => (c, none)
  | fuel + 1, c, window =>
    if c.tail < c.head + window then
      match more c with
      | (c, some e) => (c, some e)
      | (c, none) => prime fuel c window
    else (c, none)

/-- rabin/chunker.go:186-196, the new hash at `head`. -/
def rollHash (c : Chunker) (window head : Nat) (hash : U64) : U64 :=
  let bufMask := c.buf.length - 1
  let pop := at8 c.buf (head &&& bufMask)
  let push := at8 c.buf ((head + window) &&& bufMask)
  let hash := hash ^^^ c.tab.pop.getD pop.toNat 0
  Rabin.pushByte c.tab hash push

/-- rabin/chunker.go:165-197: the rolling loop.  Returns the chunker, `head` and the error with which
`Next` returns from inside the loop (if any).  The first argument bounds the number of iterations:
`head` grows up to `limit`. -/
def scan : Nat → Chunker → Nat → Nat → U64 → Nat → Nat → Chunker × Nat × Option Err
  | 0, c, _, head, _, _, _ => (c, head, none)
  | fuel + 1, c, window, head, hash, refill, limit =>
    if hash &&& c.hashMask ≠ c.hashMask ∧ head < limit then
      if head = refill then
        match more { c with head := head } with
        | (c, some .eof) => (c, head, none)
        | (c, some e) => (c, head, some e)
        | (c, none) => scan fuel c window (head + 1) (rollHash c window head hash) (c.tail - window) limit
      else scan fuel c window (head + 1) (rollHash c window head hash) refill limit
    else (c, head, none)

/-- rabin/chunker.go:140-208, `Next` after the skip. -/
def nextBody (c : Chunker) (start window : Nat) : Chunker × Nat × Option Err :=
  match prime (c.head + window - c.tail) c window with
  | (c, some e) => if e = .eof ∧ c.tail ≠ start then (c, c.tail - start, none) else (c, 0, some e)
  | (c, none) =>
    let bufMask := c.buf.length - 1
    let b1 := c.buf.drop (c.head &&& bufMask)
    let (b1, b2) := if window ≤ b1.length then (b1.take window, []) else (b1, c.buf.take (window - b1.length))
    let hash := Rabin.update c.tab (Rabin.update c.tab 0 b1) b2
    let refill := c.tail - window
    let limit := start + c.maxBytes - window
    match scan (limit - c.head) c window c.head hash refill limit with
    | (c, _, some e) => (c, 0, some e)
    | (c, head, none) =>
      let head := head + window
      ({ c with head := head }, head - start, none)

/-- rabin/chunker.go:120-138 `Next` -/
def next (c : Chunker) : Chunker × Nat × Option Err :=
  match c.ioErr with
  | some e => (c, 0, some e)
  | none =>
    let window := c.tab.window.toNat
    let c1 := { c with head := c.head + (c.minBytes - window) }
    match (if c1.head > c1.tail then discard c1 (c1.head - c1.tail) else (c1, none)) with
    | (c2, some e) => if e = .eof then (c2, c2.tail - c.head, none) else (c2, 0, some e)
    | (c2, none) => nextBody c2 c.head window

/-- `k` calls of `Next`. -/
def nexts (c : Chunker) : Nat → List (Nat × Option Err)
  | 0 => []
  | k + 1 => let (c, n, e) := next c; (n, e) :: nexts c k

end Verif.Chunker
