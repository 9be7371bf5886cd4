# Formal model of deatil/go-hash in Lean 4

## Layout

* `lean/Verif/Basic.lean`, `HashAPI.lean`, `Buffer.lean`, `Padding.lean` – vocabulary: bytes,
  Go's `copy`, byte orders, blocks of a message; the `hash.Hash` interface, histories of calls and
  the abstract hash object; the buffering loop shared by most digests.
* `lean/Verif/Spec/*` – specifications written from the standards, independent of the code.
* `lean/Verif/Model/*` – the model of the Go code, function by function, each definition citing
  file and lines of /repo.
* `lean/Verif/Props/*` – the property theorems, each beside a non-vacuity `example`; helper lemmas
  live in `lean/Verif/Lemmas/*` or next to the model.

## Method

The central notion is `Refines I s₀ S` (`HashAPI.lean`): for **every** finite list of calls
(`Write p`, `Sum b`, `Reset`, `Size`, `BlockSize`) the outputs of the concrete object `I` started
in `s₀` equal those of the abstract object whose only state is the message written since the last
`Reset`, and whose digest function is the specification `S.H`.  A panic is an output, so
`Refines` also says that nothing panics.  It is proved by a simulation relation
(`refines_of_sim`) whose write step is usually the buffer lemma `bufWrite_spec`.

Where the code violates the property, the negation is proved with a concrete witness
(`…_violated`), and the largest fragment found true is proved as `…_partial`.

Go `uint8/uint32/uint64` arithmetic is `BitVec`; `int` indices are `Nat` (they never go negative in
the modelled code unless stated); slices are lists, with aliasing modelled explicitly where a
digest shares a slice or pointer between copies; panics are `none`.

## Trusted base

* Lean 4.33.0's kernel. Theorems may depend only on `propext`, `Classical.choice`, `Quot.sound`.
  No axioms are declared; no `native_decide`, no `bv_decide`.
* The reading of the Go source into the model (nothing is executed here). Known-answer vectors
  from the repository's own tests are checked against the models by kernel evaluation
  (`example … := by decide +kernel`); they are labelled tests and guard against transcription
  errors only.
* The reading of the standards into `Spec/*`.

## Scope: what is modelled and what is not

Every `Model/*.lean` definition cites its lines in /repo.  The table lists, per package, what the model covers and what it leaves out or takes
as a parameter (a parameter is universally quantified in the theorems: no assumption is hidden in it unless the table says so).

| package | module(s) | modelled | not modelled / parameters |
|---|---|---|---|
| sm3 | SM3 | digest, block function, Sum, Marshal/Unmarshal | amd64/arm64 block functions |
| md2, sha0, has160, ripemd, tiger, haval | MD2, SHA0, HAS160, RIPEMD, Tiger, Haval | whole package | – |
| blake256, blake512 | BLAKE256, BLAKE512 | digest, salt, counters, compression, marshalling | – |
| lyra2re, lyra2re2: lyra2re.go, sum.go | Lyra2, Lyra2Sum | whole files | rows are offsets in one list; `row`, `step` as unbounded integers (int is 64 bits; fewer than 2^62 rows); Keccak-256 of x/crypto is a parameter |
| blake256/binary.go, blake512/binary.go | BLAKEMarshal | all | nothing left out |
| one-shot `Sum…` functions of the packages | OneShot | constructor, `Write`, `Sum`/`checkSum`, copy into the result | – |
| hash/md5.go, sha.go, sha3.go, shake.go, blake.go, ..., hash_helper.go `MD5_16` | FacadeStd | the facade methods for library algorithms | the libraries are a parameter |
| hash/hashing/esch, hash_use.go `Mode.String`, package initialisation | Plugin | all | one goroutine |
| gmac/gcm/ctr.go, block.go, `GCMCounterCrypt`, `Auth` | GCMCtr | counter mode, tag | Decrypt4/8 (one line per block, not called); assembly |
| gmac/gcm/gcm_asm.go | GCMOut | `gcmAuthAsm`, `gcmDeriveCounterAsm` | the assembly routines (represented by their purpose) |
| makwa/params.go | MakwaParams | `GenerateParameters`, `genPrime` | crypto/rand.Prime (parameter) |
| cmac/aes, pmac/aes | AESMac | whole packages | crypto/aes (taken to be FIPS 197) |
| vmac/vmac.go (New, SetNonce) | VMACNonce | which slice the object refers to | slices that overlap |
| cubehash.go, haval.go, shabal.go, echo.go, groestl.go, tiger.go, md6.go, siphash.go, chaskey.go, fsb.go, skein512/skein.go | Ctors | the named constructors | |
| skein256/skein.go, skein1024/skein.go, skein.go (Sum), shavite.go, bash.go, xxhash32.go, xxhash64.go | OneShot2 | the one-shot functions | |
| hash.go, hash_from.go, hash_to.go, hash_sum.go | FacadeVars | several variables, shared digest objects and arrays | slices that overlap in part |
| gost/gost34112012/hash.go | Gost12Mem | arrays of the object, operands that are the array written | storage of `buf` (C142) |
| gost/gost34112012/hash.go | Gost12Alias | the buffer as a slice of the caller's array | data written that lies in the same array |
| gost/gost34112012256/esptree.go, tlstree.go | KeyTreeMem | arrays of the keys, stores of the caller | — |
| k12/digest.go | K12Custom | the customisation string as the caller's array | `Read` in such histories |
| hash/hash_data_set.go | DataSet | all methods, one goroutine, any iteration order; the map that `All` returns | keys are numbers; growth of the map |
| hash/hmac.go | HmacTable | the table under concurrency | what an undetected data race does |
| makwa/makwa.go, digest.go | MakwaMem | `Hash` and `Recover` with the caller's memory, `Hash` from several goroutines with one salt slice | growth policy of `append` (irrelevant: new storage is private) |
| md6/digest.go | MD6Mem | `newDigest` with the caller's memory | — |
| skein512/hash.go `XORKeyStream` | Skein512Mem | dst and src as slices of one memory, panics | state after a panic |
| sm3/rand.go, rand_df.go | SM3Rand | whole files | `math/rand` draws and `time.Now` are inputs |
| xxhash/xxh3 | XXH3 | whole package, both digests with panics of `Write`, and the exported functions | AVX/SSE variants do not exist in the package |
| siphash, xxhash32, xxhash64, murmur3 | SipHash, XXHash, Murmur3 | whole package | unsafe word loads are read as little-endian loads |
| crc16/* | CRC16 | tables, streaming, text | – |
| chaskey, esch, cubehash, panama, radio_gatun, belt, bash | Chaskey, Esch, CubeHash, Panama, RadioGatun, Belt, Bash | whole package (belt incl. the cipher; bash-f incl. the unrolled program) | – |
| cmac, pmac, gmac, vmac, gost341194 | CMAC, PMAC, GMAC, VMAC, Gost94 | whole package | the block cipher is a parameter; gmac/gcm assembly |
| hash_composition | Composition | New, Write, Sum, Reset | the two hash objects are parameters |
| rabin | Rabin, Chunker | polynomial arithmetic, rolling hash, chunker over arbitrary readers | – |
| ascon | Ascon | permutation, AEAD, hash, XOF, MAC, in-place use | – |
| blake3 | BLAKE3 | hasher, chunk stack, output reader | – |
| k12 | Keccak, K12 | sponge, chunk tree, unrolled permutation | amd64 assembly |
| md6 | MD6 | compression, `mid` | – |
| lsh256, lsh512, whirlpool, groestl, jh, jh2, kupyna, shavite, echo, shabal, bmw, luffa, fugue, hamsi, simd, haraka, fsb | LSH, Whirlpool, Groestl, JH1, JH2, Kupyna, Shavite, Echo, Shabal, BMW, Luffa, Fugue, Hamsi, SIMD, Haraka, FSB | whole package; large tables and unrolled code are generated from the Go text by `tools/gen_*.py` | fsb: the Pi table is a parameter |
| gost34112012*, streebog | Gost12, Streebog, KeyTree | both Streebog implementations, marshalling, KDF and key trees | the KDF's HMAC is the model's own hash; |
| skein, skein/*, skein512, skeins | Threefish, Skein, Skein512, Skeins | cipher, UBI, output reader, one-shot functions | – |
| makwa | Makwa, Big | text codec, work factors, hash/check, recovery | HMAC is a parameter; `math/big` is `Nat` |
| hash (facade) | Facade, FacadeAlgos, Registry | fluent object, registry as an interleaving machine, identifiers | see FacadeStd |
| hash/hmac.go (and crypto/hmac) | HMAC | Hmac, NewHmac, the table of constructors; the HMAC object | crypto/hmac is trusted to be as modelled; constructors of the Go library are names |
| tool/deepcopy | DeepCopy | copy over a heap of typed values | – |

Large constants appear twice: in `Model` (generated from /repo) and in `Spec` (from the standard, where possible computed from its definition,
e.g. the Whirlpool, Kupyna, Fugue and Luffa tables); their equality is a theorem (`decide +kernel`).

## Per-property plan

| id | what is modelled, how it is proved |
|----|-------------------------------------|
| C01 | sm3 digest and generic block function; refinement to SM3 (expansion, CF, padding from GB/T 32905) |
| C02 | Marshal/UnmarshalBinary; bisimulation of restored digest |
| C03–C04 | md2 digest, checksum and serialisation; refinement to RFC 1319 |
| C05, C06 | sha0, has160; refinement to the standard |
| C07 | ripemd (x/crypto style buffering); refinement |
| C08 | tiger; refinement, both paddings |
| C09, C10 | blake256/512 incl. counter tricks and salt; refinement without Reset after salt; `Reset` violation proved |
| C11 | siphash; refinement on Reset-free histories; violation for Reset |
| C12 | xxhash32/64; refinement |
| C13 | murmur3; refinement except `Size` of New64 (violation) |
| C14 | crc16 table algorithm = bitwise remainder, all inputs |
| C15 | hexadecimal text and facade decoding: violation + exact characterisation |
| C16 | chaskey: one-write histories; violations (split at block boundary, empty write, Reset) |
| C17 | gmac with abstract block cipher; one-shot theorem, violation for split writes and for Sum prefix; table-driven multiplication = GF(2^128) product |
| C18 | cmac with abstract block cipher; refinement for 64/128-bit, violation of doubling for big blocks |
| C19 | pmac with explicit sharing of the digest slice; first-Sum theorem, violations |
| C20 | hash composition over two abstract objects; first-Sum theorem, violation for the second Sum |
| C21, C22 | rabin: polynomials over GF(2) as Nat/BitVec; invariant by induction over bytes |
| C23 | chunker as state machine over arbitrary readers; violations (phantom empty chunk, data+EOF) and partial partition theorem |
| C24 | ascon AEAD; induction over blocks; violation: plaintext returned with error |
| C25, C26 | ascon hash/XOF/MAC; refinement; XOF stream lemma |
| C27 | blake3 hasher with its uint8 stack length; refinement below the overflow, violation above |
| C28 | k12 sponge and chunk tree; Reset-free refinement, violation for Reset |
| C29 | esch; single-write theorem, violation for splits |
| C30 | md6 `mid`; violation: two messages differing only in ignored bytes collide |
| C31, C32 | lsh, whirlpool; refinement |
| C33 | gost34112012 refinement; streebog checksum carry violation; partial agreement |
| C34 | Marshal round trip; violation: accepted input that panics |
| C35 | gost341194 over an abstract cipher; refinement |
| C36 | key trees as state machines over an abstract KDF; violation for a fresh TLSTree; partial coherence |
| C37 | groestl; constructor violation, refinement for valid sizes |
| C38 | jh (slices with capacity; panic violation), jh2 refinement |
| C39 | the three skeins; violations; agreement where true |
| C40 | threefish inverse, by composition of invertible rounds |
| C41 | vmac over an abstract cipher; refinement, constructor violation |
| C42–C44 | makwa: text codec, number theory in `ZMod`; violations for mantissa 3 and unpadded extension |
| C45–C50, C55, C56 | the remaining digests, block functions included (the straight-line code is proved equal to an independent statement of the function); violations where found |
| C57, C58 | ascon: what Open leaves in its output, overlapping buffers |
| C59–C61 | skein512 / skein: output reader, stream cipher, one-shot functions |
| C62 | belt cipher: standard and invertible |
| C63 | lsh one-shot functions |
| C51–C54 | facade, registry as interleaving machine, identifiers, deepcopy over a heap |
| C64 | haraka: T-table rounds = AES rounds of an independent specification, word shuffles = mixing layer; portable code only |
| C65–C98 | sharper statements about single packages, each true as stated and proved for its whole range; the broader properties they belong to (C09–C56), some of them false of the code, stay in the list with their violations |
| C99–C102 | xxh3: word lemmas for the multiplications and the short lengths, the accumulator loop against a fold over 64-byte stripes, a representation invariant for the digest with its catch-up bytes, refinement over the histories without a panicking Write |
| C103–C107 | sm3 Rand and DF: two SM3 objects under C01's invariant, exact forms of the derivation and of the addition, the clock and the draws of the system generator as inputs of the model |
| C108–C113 | Lyra2 as in the code with the matrix as one list of words; the closed form of the visiting order by an invariant over windows of powers of two, the wandering pass by the order of the step modulo the rows; Sum as the composition of C09, C108/C109, C39, C37, C48, C50 with Keccak-256 (not in the repository) as a parameter |
| C114–C119 | `MarshalBinary`/`UnmarshalBinary` of blake256 and blake512 as byte strings; reading back by offsets; round trip by the representation relation of C09/C10 with the salt existentially quantified (`Reset` drops it); C116/C119 are false: counterexample by kernel evaluation |
| C120–C121 | one definition per Go method (generated, `tools/gen_facade.py`), over the digest models; by the contracts of the algorithms |
| C122–C125 | crypto/hmac modelled from its source (New, Write, Sum, Reset with its use of MarshalBinary), over any hash object; simulation: inner object = key block + message, saved strings restore the key blocks; then instances by the contracts and round trips of the algorithms |
| C126–C127 | one definition per exported one-shot function (generated, `tools/gen_oneshot.py`): constructor, Write, Sum or checkSum, the copy into the result array; by the contracts of the algorithms and the exact digest lengths of the specifications (`Lemmas/DigestLen.lean`) |
| C128–C129 | one definition per facade method (generated, `tools/gen_facadestd.py`) over a parameter `Lib` for the functions of the Go library and x/crypto; hypothesis `LibOK` says what they document; a reference library shows that it can be met |
| C130 | the tables of modes, names and algorithms; invariant: entry i belongs to the i-th plug-in; the two Esch plug-ins by C126 and C29 |
| C131, C133 | GHASH of additional data and ciphertext by the lemmas of C17; counter mode of C132; composition |
| C132 | object = position in the key stream and number of counter blocks used; induction on the loop of Xor and on the history |
| C134 | the same functions with the former contents of the buffer as an argument; the Go code around the assembly over what the two routines are for; violations |
| C135 | loop over the results of crypto/rand.Prime, a parameter; interval arithmetic for the length of the product; violations for 4 and 8 bits |
| C136 | FIPS 197 as a specification; AES maps blocks to blocks; C18 and C19 with that cipher |
| C137 | Model/VMACNonce.lean: the caller's slices as a memory, the object holds a reference; induction over the history against a specification that captures the value; the aliasing fault as a theorem for every permutation |
| C138 | Model/Ctors.lean: each constructor as the call it makes; instances of the contracts C08, C11, C16, C30, C37, C39, C48, C50, C55, C56 with the parameters of the variant |
| C139 | Model/OneShot2.lean: the functions as written, over the objects of C12, C39, C46, C47; their contracts and the lengths of the digests |
| C140 | Model/FacadeVars.lean: variables, digest objects and arrays with references; simulation by ideal objects; non-interference by an invariant on what two groups of variables refer to |
| C141 | Model/Gost12Mem.lean: the functions on a heap of arrays, byte by byte; simulation of the value model Gost12 (C33), frame conditions for each function |
| C142 | Model/Gost12Alias.lean: the array of the caller and a buffer that is a slice of it, append in place; simulation by the value model, counterexamples |
| C143 | Model/KeyTreeMem.lean: the trees with numbered arrays for the keys; a generic cell invariant (arrays from Derive are referred to once) gives the simulation by a specification with private slices |
| C144 | Model/K12Custom.lean: the object with a reference to the caller's array; induction over the history with the invariant of C28, which does not depend on the customisation string |
| C145 | Model/DataSet.lean: the Go map as an association list, iteration in any permutation of the keys; Spec/DataSet.lean: the most recent change decides; invariant (distinct keys, lookups agree with the history) by induction over the history |
| C146 | Model/DataSet.lean, as C145, with the stores a caller makes through `All` |
| C147 | Model/HmacTable.lean: goroutines on the shared map, an assignment is two steps; induction over the schedule; explicit schedules for the violation |
| C148 | Model/MakwaMem.lean: slices with capacity in the caller's memory, `append` in place or into new storage; pointwise description of the memory after the two appends, then the value model of C43 |
| C149 | Model/MakwaMem.lean `stepThread`, `runThreads`: the two appends and the read as steps on shared memory; induction over the schedule; an explicit schedule for the violation |
| C150 | Model/MD6Mem.lean over Model/GoSlice.lean (slices with capacity, `append` in place or into new storage); induction over the padding loop |
| C151 | Model/MakwaMem.lean `held`, `stores`: the field Salt is a slice of the caller's memory; from C148 and C43 |
| C152 | Model/Skein512Mem.lean: byte-by-byte loops over one memory; equal to one pass with the bytes `Read` would deliver; C59 for the bytes |
