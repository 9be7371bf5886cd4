import Verif.HashAPI
/-
Model of /repo/blake3 (all of the package).
Arrays are lists of their fixed length; `copy` is `goCopy`.  `int` and `uint64` lengths and counts are
natural numbers where the code only adds and compares them; `cv_stack_len` is `uint8` and the byte
offsets computed from it are `uint8` products, as in the code.
-/
namespace Verif.BLAKE3

/-- sbox.go:19-23 `iv`. -/
def iv : List U32 := [0x6A09E667, 0xBB67AE85, 0x3C6EF372, 0xA54FF53A, 0x510E527F, 0x9B05688C, 0x1F83D9AB, 0x5BE0CD19]
/-- sbox.go:25-33 `MSG_SCHEDULE`. -/
def MSG_SCHEDULE : List (List Nat) := [
  [0, 1, 2, 3, 4, 5, 6, 7, 8, 9, 10, 11, 12, 13, 14, 15],
  [2, 6, 3, 10, 7, 0, 4, 13, 1, 11, 12, 5, 9, 14, 15, 8],
  [3, 4, 10, 12, 13, 2, 7, 14, 6, 5, 9, 0, 11, 15, 8, 1],
  [10, 7, 12, 9, 14, 3, 13, 15, 4, 0, 11, 2, 5, 8, 1, 6],
  [12, 13, 9, 11, 15, 10, 14, 8, 7, 2, 5, 3, 0, 1, 6, 4],
  [9, 14, 11, 5, 8, 12, 15, 1, 13, 3, 0, 10, 2, 6, 4, 7],
  [11, 15, 5, 0, 1, 9, 8, 6, 14, 10, 2, 12, 3, 4, 7, 13]]
/-- sbox.go:9-17, the flags. -/
def CHUNK_START : Byte := 1#8
def CHUNK_END : Byte := 2#8
def PARENT : Byte := 4#8
def ROOT : Byte := 8#8
def KEYED_HASH : Byte := 16#8
def DERIVE_KEY_CONTEXT : Byte := 32#8
def DERIVE_KEY_MATERIAL : Byte := 64#8

/-- utils.go:16-27 `bytesToUint32s`. -/
def bytesToUint32s (b : Bytes) : List U32 := (List.range (b.length / 4)).map fun i => getLE32 b (i * 4)
/-- utils.go:29-40 `uint32sToBytes`. -/
def uint32sToBytes (w : List U32) : Bytes := w.flatMap le32

/-- utils.go:42-70 `highest_one`; the argument is below 2^64, where `&` and `>>` of natural numbers are
those of `uint64`. -/
def highest_one (x : Nat) : Nat :=
  let (x, c) := if x &&& 0xffffffff00000000 ≠ 0 then (x >>> 32, 32) else (x, 0)
  let (x, c) := if x &&& 0x00000000ffff0000 ≠ 0 then (x >>> 16, c + 16) else (x, c)
  let (x, c) := if x &&& 0x000000000000ff00 ≠ 0 then (x >>> 8, c + 8) else (x, c)
  let (x, c) := if x &&& 0x00000000000000f0 ≠ 0 then (x >>> 4, c + 4) else (x, c)
  let (x, c) := if x &&& 0x000000000000000c ≠ 0 then (x >>> 2, c + 2) else (x, c)
  if x &&& 0x0000000000000002 ≠ 0 then c + 1 else c

/-- utils.go:72-81 `popcnt`; the loop clears one bit each time, so 64 iterations are enough for a
`uint64`. -/
def popcntLoop : Nat → Nat → Nat → Nat
  | 0, _, count => count
  | fuel + 1, x, count => if x ≠ 0 then popcntLoop fuel (x &&& (x - 1)) (count + 1) else count
/-- utils.go:72-81 `popcnt`. -/
def popcnt (x : Nat) : Nat := popcntLoop 64 x 0

/-- utils.go:83-85 `round_down_to_power_of_2`. -/
def round_down_to_power_of_2 (x : Nat) : Nat := 1 <<< highest_one (x ||| 1)

/-- utils.go:95-97 `rotr32`. -/
def rotr32 (x : U32) (n : Nat) : U32 := x.rotateLeft (32 - n)

/-- utils.go:99-108 `g`. -/
def g (s : List U32) (a b c d : Nat) (x y : U32) : List U32 :=
  let s := s.set a (s.getD a 0 + s.getD b 0 + x)
  let s := s.set d (rotr32 (s.getD d 0 ^^^ s.getD a 0) 16)
  let s := s.set c (s.getD c 0 + s.getD d 0)
  let s := s.set b (rotr32 (s.getD b 0 ^^^ s.getD c 0) 12)
  let s := s.set a (s.getD a 0 + s.getD b 0 + y)
  let s := s.set d (rotr32 (s.getD d 0 ^^^ s.getD a 0) 8)
  let s := s.set c (s.getD c 0 + s.getD d 0)
  s.set b (rotr32 (s.getD b 0 ^^^ s.getD c 0) 7)

/-- utils.go:110-125 `round_fn`. -/
def round_fn (s msg : List U32) (r : Nat) : List U32 :=
  let schedule := MSG_SCHEDULE.getD r []
  let w i := msg.getD (schedule.getD i 0) 0
  let s := g s 0 4 8 12 (w 0) (w 1)
  let s := g s 1 5 9 13 (w 2) (w 3)
  let s := g s 2 6 10 14 (w 4) (w 5)
  let s := g s 3 7 11 15 (w 6) (w 7)
  let s := g s 0 5 10 15 (w 8) (w 9)
  let s := g s 1 6 11 12 (w 10) (w 11)
  let s := g s 2 7 8 13 (w 12) (w 13)
  g s 3 4 9 14 (w 14) (w 15)

/-- portable.go:3-53 `compress_pre`. -/
def compress_pre (cv : List U32) (block : Bytes) (block_len : Byte) (counter : U64) (flags : Byte) : List U32 :=
  let w := [getLE32 block 0, getLE32 block 4, getLE32 block 8, getLE32 block 12, getLE32 block 16, getLE32 block 20,
    getLE32 block 24, getLE32 block 28, getLE32 block 32, getLE32 block 36, getLE32 block 40, getLE32 block 44,
    getLE32 block 48, getLE32 block 52, getLE32 block 56, getLE32 block 60]
  let s := [cv.getD 0 0, cv.getD 1 0, cv.getD 2 0, cv.getD 3 0, cv.getD 4 0, cv.getD 5 0, cv.getD 6 0, cv.getD 7 0,
    iv.getD 0 0, iv.getD 1 0, iv.getD 2 0, iv.getD 3 0, counter.setWidth 32, (counter >>> 32).setWidth 32,
    block_len.setWidth 32, flags.setWidth 32]
  round_fn (round_fn (round_fn (round_fn (round_fn (round_fn (round_fn s w 0) w 1) w 2) w 3) w 4) w 5) w 6

/-- portable.go:55-73 `blake3_compress_in_place`. -/
def compress_in_place (cv : List U32) (block : Bytes) (block_len : Byte) (counter : U64) (flags : Byte) : List U32 :=
  let s := compress_pre cv block block_len counter flags
  [s.getD 0 0 ^^^ s.getD 8 0, s.getD 1 0 ^^^ s.getD 9 0, s.getD 2 0 ^^^ s.getD 10 0, s.getD 3 0 ^^^ s.getD 11 0,
   s.getD 4 0 ^^^ s.getD 12 0, s.getD 5 0 ^^^ s.getD 13 0, s.getD 6 0 ^^^ s.getD 14 0, s.getD 7 0 ^^^ s.getD 15 0]

/-- portable.go:75-102 `blake3_compress_xof`. -/
def compress_xof (cv : List U32) (block : Bytes) (block_len : Byte) (counter : U64) (flags : Byte) : Bytes :=
  let s := compress_pre cv block block_len counter flags
  le32 (s.getD 0 0 ^^^ s.getD 8 0) ++ (le32 (s.getD 1 0 ^^^ s.getD 9 0) ++ (le32 (s.getD 2 0 ^^^ s.getD 10 0) ++
  (le32 (s.getD 3 0 ^^^ s.getD 11 0) ++ (le32 (s.getD 4 0 ^^^ s.getD 12 0) ++ (le32 (s.getD 5 0 ^^^ s.getD 13 0) ++
  (le32 (s.getD 6 0 ^^^ s.getD 14 0) ++ (le32 (s.getD 7 0 ^^^ s.getD 15 0) ++ (le32 (s.getD 8 0 ^^^ cv.getD 0 0) ++
  (le32 (s.getD 9 0 ^^^ cv.getD 1 0) ++ (le32 (s.getD 10 0 ^^^ cv.getD 2 0) ++ (le32 (s.getD 11 0 ^^^ cv.getD 3 0) ++
  (le32 (s.getD 12 0 ^^^ cv.getD 4 0) ++ (le32 (s.getD 13 0 ^^^ cv.getD 5 0) ++ (le32 (s.getD 14 0 ^^^ cv.getD 6 0) ++
  le32 (s.getD 15 0 ^^^ cv.getD 7 0)))))))))))))))

/-- portable.go:104-145 `hash_one`: the loop, with `blocks` iterations left, at block `i`. -/
def hashOneLoop (input : Bytes) (counter : U64) (flags flags_end : Byte) : Nat → Nat → List U32 → Byte → List U32
  | 0, _, cv, _ => cv
  | blocks + 1, i, cv, block_flags =>
    let block_flags := if blocks + 1 = 1 then block_flags ||| flags_end else block_flags
    let block := goCopy (zeros 64) 0 ((input.drop (i * 64)).take 64)
    hashOneLoop input counter flags flags_end blocks (i + 1) (compress_in_place cv block 64#8 counter block_flags) flags
/-- portable.go:104-145 `hash_one`.  The array `block` is refilled whole by each `copy` (the inputs
have `blocks·64` bytes). -/
def hash_one (input : Bytes) (blocks : Nat) (key : List U32) (counter : U64) (flags flags_start flags_end : Byte) : Bytes :=
  uint32sToBytes (hashOneLoop input counter flags flags_end blocks 0 key (flags ||| flags_start))

/-- portable.go:147-183 `blake3_hash_many`. -/
def hash_many (blocks : Nat) (key : List U32) (increment : Bool) (flags flags_start flags_end : Byte) :
    List Bytes → U64 → Bytes
  | [], _ => []
  | inp :: rest, counter =>
    hash_one inp blocks key counter flags flags_start flags_end ++
      hash_many blocks key increment flags flags_start flags_end rest (if increment then counter + 1 else counter)

/-- chunk_state.go:5-12 `chunkState`. -/
structure ChunkState where
  cv : List U32
  chunk_counter : U64
  buf : Bytes
  buf_len : Byte
  blocks_compressed : Byte
  flags : Byte

/-- chunk_state.go:14-23 `newChunkState`. -/
def newChunkState (key : List U32) (flags : Byte) : ChunkState :=
  { cv := key, chunk_counter := 0, buf := zeros 64, buf_len := 0, blocks_compressed := 0, flags := flags }

/-- chunk_state.go:25-31 `reset`. -/
def ChunkState.reset (cs : ChunkState) (key : List U32) (counter : U64) : ChunkState :=
  { cs with cv := key, chunk_counter := counter, blocks_compressed := 0, buf := zeros 64, buf_len := 0 }

/-- chunk_state.go:33-35 `length`. -/
def ChunkState.length (cs : ChunkState) : Nat := 64 * cs.blocks_compressed.toNat + cs.buf_len.toNat

/-- chunk_state.go:37-50 `fillBuf`; the new state and the number of bytes taken. -/
def ChunkState.fillBuf (cs : ChunkState) (input : Bytes) : ChunkState × Nat :=
  let take := 64 - cs.buf_len.toNat
  let take := if take > input.length then input.length else take
  ({ cs with buf := goCopy cs.buf cs.buf_len.toNat (input.take take), buf_len := cs.buf_len + BitVec.ofNat 8 take }, take)

/-- chunk_state.go:52-58 `maybeStartFlag`. -/
def ChunkState.maybeStartFlag (cs : ChunkState) : Byte := if cs.blocks_compressed = 0 then CHUNK_START else 0

/-- chunk_state.go:85-101, one iteration of the loop of `update`: the block is compressed. -/
def ChunkState.block (cs : ChunkState) (b : Bytes) : ChunkState :=
  { cs with cv := compress_in_place cs.cv b 64#8 cs.chunk_counter (cs.flags ||| cs.maybeStartFlag),
            blocks_compressed := cs.blocks_compressed + 1 }

/-- chunk_state.go:84-99, the loop of `update` (at most one iteration per byte). -/
def ChunkState.loop : Nat → ChunkState → Bytes → ChunkState × Bytes
  | 0, cs, input => (cs, input)
  | fuel + 1, cs, input =>
    if input.length > 64 then ChunkState.loop fuel (cs.block (goCopy (zeros 64) 0 (input.take 64))) (input.drop 64)
    else (cs, input)

/-- chunk_state.go:63-81, the first part of `update`: the pending block. -/
def ChunkState.pending (cs : ChunkState) (input : Bytes) : ChunkState × Bytes :=
  if cs.buf_len.toNat > 0 then
    let r := cs.fillBuf input
    let input := input.drop r.2
    if input.length > 0 then ({ r.1.block r.1.buf with buf_len := 0, buf := zeros 64 }, input) else (r.1, input)
  else (cs, input)

/-- chunk_state.go:60-104 `update`. -/
def ChunkState.update (cs : ChunkState) (input : Bytes) : ChunkState :=
  let r := cs.pending input
  let r := ChunkState.loop r.2.length r.1 r.2
  (r.1.fillBuf r.2).1

/-- output.go:3-9 `output`. -/
structure Output where
  input_cv : List U32
  counter : U64
  block : Bytes
  block_len : Byte
  flags : Byte

/-- output.go:29-43 `chainingValue`. -/
def Output.chainingValue (o : Output) : Bytes :=
  uint32sToBytes (compress_in_place o.input_cv o.block o.block_len o.counter o.flags)

/-- output.go:45-77 `rootBytes`, the loop; `seek` is 0 at its only call, so `offset_within_block` is 0
throughout.  The result is the concatenation of the copied parts. -/
def Output.rootLoop (o : Output) : Nat → U64 → Nat → Bytes
  | 0, _, _ => []
  | fuel + 1, counter, out_len =>
    if out_len > 0 then
      let wide := compress_xof o.input_cv o.block o.block_len counter (o.flags ||| ROOT)
      let n := if out_len > 64 then 64 else out_len
      wide.take n ++ o.rootLoop fuel (counter + 1) (out_len - n)
    else []
/-- output.go:45-77 `rootBytes(0, out, out_len)`. -/
def Output.rootBytes (o : Output) (out_len : Nat) : Bytes := o.rootLoop out_len 0 out_len

/-- chunk_state.go:106-115 `output`. -/
def ChunkState.output (cs : ChunkState) : Output :=
  { input_cv := cs.cv, block := cs.buf, block_len := cs.buf_len, counter := cs.chunk_counter,
    flags := cs.flags ||| cs.maybeStartFlag ||| CHUNK_END }

/-- compress.go:3-5 `parent_output`. -/
def parent_output (block : Bytes) (key : List U32) (flags : Byte) : Output :=
  { input_cv := key, block := block, block_len := 64#8, counter := 0, flags := flags ||| PARENT }

/-- compress.go:7-10 `left_len`. -/
def left_len (content_len : Nat) : Nat := round_down_to_power_of_2 ((content_len - 1) / 1024) * 1024

/-- compress.go:24-30, the loop of `compress_chunks_parallel` that collects whole chunks.  The array has
one place: a second chunk would be an index out of range; it is only called with at most 1024 bytes
(compress.go:111). -/
def chunksOf : Nat → Bytes → List Bytes × Bytes
  | 0, rest => ([], rest)
  | fuel + 1, rest =>
    if rest.length ≥ 1024 then
      let r := chunksOf fuel (rest.drop 1024)
      (rest.take 1024 :: r.1, r.2)
    else ([], rest)

/-- compress.go:12-64 `compress_chunks_parallel`. -/
def compress_chunks_parallel (input : Bytes) (key : List U32) (counter : U64) (flags : Byte) : Bytes × Nat :=
  let r := chunksOf input.length input
  let out := hash_many (1024 / 64) key true flags CHUNK_START CHUNK_END r.1 counter
  if r.2.length > 0 then
    let cs := newChunkState key flags
    let cs := { cs with chunk_counter := counter + BitVec.ofNat 64 r.1.length }
    let cs := cs.update r.2
    (out ++ cs.output.chainingValue, r.1.length + 1)
  else (out, r.1.length)

/-- compress.go:66-101 `compress_parents_parallel`; at most two parents (four chaining values). -/
def compress_parents_parallel (cvs : Bytes) (num : Nat) (key : List U32) (flags : Byte) : Bytes × Nat :=
  let parents := (List.range (num / 2)).map fun i => goCopy (zeros 64) 0 ((cvs.drop (64 * i)).take 64)
  let out := hash_many 1 key false (flags ||| PARENT) 0 0 parents 0
  if num > 2 * parents.length then
    (out ++ (cvs.drop (2 * parents.length * 32)).take 32, parents.length + 1)
  else (out, parents.length)

/-- compress.go:103-159 `compress_subtree_wide`; the recursion halves the input, so the length is
enough fuel. -/
def compress_subtree_wide (key : List U32) (flags : Byte) : Nat → Bytes → U64 → Bytes × Nat
  | 0, input, counter => compress_chunks_parallel input key counter flags
  | fuel + 1, input, counter =>
    if input.length ≤ 1024 then compress_chunks_parallel input key counter flags
    else
      let left := left_len input.length
      let degree := if left > 1024 then 2 else 1
      let l := compress_subtree_wide key flags fuel (input.take left) counter
      let r := compress_subtree_wide key flags fuel (input.drop left) (counter + BitVec.ofNat 64 (left / 1024))
      let cv_array := goCopy (zeros 128) 0 l.1
      let cv_array := goCopy cv_array (degree * 32) r.1
      if l.2 = 1 then (cv_array.take 64, 2)
      else compress_parents_parallel cv_array (l.2 + r.2) key flags

/-- compress.go:161-179 `compress_subtree_to_parent_node`. -/
def compress_subtree_to_parent_node (input : Bytes) (key : List U32) (counter : U64) (flags : Byte) : Bytes :=
  goCopy (zeros 64) 0 ((compress_subtree_wide key flags input.length input counter).1.take 64)

/-- digest.go:11-18 `digest`. -/
structure Digest where
  key : List U32
  chunk : ChunkState
  cv_stack_len : Byte
  cv_stack : Bytes
  hs : Nat

/-- digest.go:31-35 `Reset`. -/
def Digest.reset (d : Digest) : Digest :=
  { d with chunk := d.chunk.reset d.key 0, cv_stack := zeros (55 * 32), cv_stack_len := 0 }

/-- digest.go:20-29 `newDigest`.  A negative size, which makes `Sum` panic, is left out. -/
def newDigest (key : List U32) (flags : Byte) (hs : Nat) : Digest :=
  Digest.reset { key := key, chunk := newChunkState key flags, cv_stack_len := 0, cv_stack := zeros (55 * 32), hs := hs }

/-- digest.go:192-203, one merge: the offsets `(d.cv_stack_len - 2) * BLAKE3_OUT_LEN` are `uint8`. -/
def Digest.mergeOne (d : Digest) : Digest :=
  let off := ((d.cv_stack_len - 2#8) * 32#8).toNat
  let parent_node := goCopy (zeros 64) 0 ((d.cv_stack.drop off).take 64)
  let cv := (parent_output parent_node d.key d.chunk.flags).chainingValue
  { d with cv_stack := goCopy d.cv_stack off cv, cv_stack_len := d.cv_stack_len - 1 }

/-- digest.go:189-204 `mergeCvStack`, its loop; `cv_stack_len` falls by one each time. -/
def Digest.mergeLoop (post : Nat) : Nat → Digest → Digest
  | 0, d => d
  | fuel + 1, d => if d.cv_stack_len.toNat > post then Digest.mergeLoop post fuel d.mergeOne else d
/-- digest.go:189-204 `mergeCvStack`. -/
def Digest.mergeCvStack (d : Digest) (total : U64) : Digest := d.mergeLoop (popcnt total.toNat) 256

/-- digest.go:206-213 `pushCV`: the offset `d.cv_stack_len * BLAKE3_OUT_LEN` is `uint8`. -/
def Digest.pushCV (d : Digest) (cv : Bytes) (counter : U64) : Digest :=
  let d := d.mergeCvStack counter
  { d with cv_stack := goCopy d.cv_stack (d.cv_stack_len * 32#8).toNat (cv.take 32), cv_stack_len := d.cv_stack_len + 1 }

/-- digest.go:86-88, the loop that halves the subtree until it is aligned. -/
def alignLoop (count : Nat) : Nat → Nat → Nat
  | 0, len => len
  | fuel + 1, len => if (len - 1) &&& count ≠ 0 then alignLoop count fuel (len / 2) else len

/-- digest.go:83-88, the length of the next subtree. -/
def Digest.subtreeLen (d : Digest) (input : Bytes) : Nat :=
  alignLoop (d.chunk.chunk_counter * 1024#64).toNat 64 (round_down_to_power_of_2 input.length)

/-- digest.go:91-121, one iteration of the main loop of `Write` (a subtree of `n` bytes). -/
def Digest.subtree (d : Digest) (input : Bytes) (n : Nat) : Digest :=
  let subtree_chunks := BitVec.ofNat 64 n / 1024#64
  let d' := if n ≤ 1024 then
      let cs := newChunkState d.key d.chunk.flags
      let cs := { cs with chunk_counter := d.chunk.chunk_counter }
      let cs := cs.update (input.take n)
      d.pushCV cs.output.chainingValue cs.chunk_counter
    else
      let pair := compress_subtree_to_parent_node (input.take n) d.key d.chunk.chunk_counter d.chunk.flags
      let d := d.pushCV (pair.take 32) d.chunk.chunk_counter
      d.pushCV (pair.drop 32) (d.chunk.chunk_counter + subtree_chunks / 2)
  { d' with chunk := { d'.chunk with chunk_counter := d'.chunk.chunk_counter + subtree_chunks } }

/-- digest.go:82-122, the main loop of `Write`. -/
def Digest.writeLoop : Nat → Digest → Bytes → Digest × Bytes
  | 0, d, input => (d, input)
  | fuel + 1, d, input =>
    if input.length > 1024 then
      let n := d.subtreeLen input
      Digest.writeLoop fuel (d.subtree input n) (input.drop n)
    else (d, input)

/-- digest.go:57-78, the first part of `Write`: the pending chunk.  `none` for the rest: `Write` returns. -/
def Digest.writeChunk (d : Digest) (input : Bytes) : Digest × Option Bytes :=
  if d.chunk.length > 0 then
    let take := 1024 - d.chunk.length
    let take := if take > input.length then input.length else take
    let d := { d with chunk := d.chunk.update (input.take take) }
    let input := input.drop take
    if input.length > 0 then
      let d := d.pushCV d.chunk.output.chainingValue d.chunk.chunk_counter
      ({ d with chunk := d.chunk.reset d.key (d.chunk.chunk_counter + 1) }, some input)
    else (d, none)
  else (d, some input)

/-- digest.go:124-127, the end of `Write`. -/
def Digest.writeEnd (d : Digest) (input : Bytes) : Digest :=
  if input.length > 0 then
    let d := { d with chunk := d.chunk.update input }
    d.mergeCvStack d.chunk.chunk_counter
  else d

/-- digest.go:45-130 `Write`. -/
def Digest.write (d : Digest) (p : Bytes) : Digest × Nat :=
  if p.length = 0 then (d, p.length)
  else match d.writeChunk p with
    | (d, none) => (d, p.length)
    | (d, some input) => let r := Digest.writeLoop input.length d input; (r.1.writeEnd r.2, p.length)

/-- digest.go:172-182, the loop of `finalizeSeek`. -/
def Digest.finalLoop (d : Digest) : Nat → Output → Output
  | 0, o => o
  | n + 1, o =>
    let block := goCopy (zeros 64) 0 ((d.cv_stack.drop (n * 32)).take 32)
    let block := goCopy block 32 o.chainingValue
    d.finalLoop n (parent_output block d.key d.chunk.flags)

/-- digest.go:143-187 `finalizeSeek(0, out)`; `none`: slicing with a negative index. -/
def Digest.finalize (d : Digest) (n : Nat) : Option Bytes :=
  if n = 0 then some []
  else if d.cv_stack_len = 0 then some (d.chunk.output.rootBytes n)
  else if d.chunk.length > 0 then
    some ((d.finalLoop d.cv_stack_len.toNat d.chunk.output).rootBytes n)
  else if d.cv_stack_len.toNat < 2 then none
  else
    let r := d.cv_stack_len.toNat - 2
    let block := goCopy (zeros 64) 0 ((d.cv_stack.drop (r * 32)).take 64)
    some ((d.finalLoop r (parent_output block d.key d.chunk.flags)).rootBytes n)

/-- digest.go:37-43, 128-141: `Size`, `BlockSize`, `Sum`.  `Sum` works on a copy `d0 := *d` that shares
the chunk state, which `finalizeSeek` only reads. -/
def impl : HashImpl Digest where
  write d p := some (d.write p)
  sum d b := (d.finalize d.hs).map fun r => (d, b ++ r)
  reset := Digest.reset
  size d := d.hs
  blockSize _ := 64

/-- blake3.go:14-16 `NewWithSize`. -/
def NewWithSize (size : Nat) : Digest := newDigest iv 0 size
/-- blake3.go:9-11 `New`. -/
def New : Digest := NewWithSize 32
/-- blake3.go:24-35 `NewWithKeyedAndSize`; `none` is the error. -/
def NewWithKeyedAndSize (key : Bytes) (size : Nat) : Option Digest :=
  if key.length ≠ 32 then none else some (newDigest (goCopy (List.replicate 8 0) 0 (bytesToUint32s key)) KEYED_HASH size)
/-- blake3.go:43-54 `NewWithDeriveKeyAndSize`; the inner digest has the size 32. -/
def NewWithDeriveKeyAndSize (context : Bytes) (size : Nat) : Option Digest :=
  let hasher := newDigest iv DERIVE_KEY_CONTEXT 32
  let hasher := (hasher.write context).1
  (hasher.finalize 32).map fun contextKey =>
    newDigest (goCopy (List.replicate 8 0) 0 (bytesToUint32s contextKey)) DERIVE_KEY_MATERIAL size

end Verif.BLAKE3
