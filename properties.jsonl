{"id": "C01", "title": "sm3.New: hash.Hash contract against the standard", "statement": "For every history of calls on a sm3.New object, Write accepts all bytes and returns their number, Sum(b) returns b followed by the GB/T 32905 SM3 digest of exactly the bytes written since construction or the last Reset, Sum does not disturb later calls, Reset returns to the initial state, Size/BlockSize are constant, and nothing panics.", "quantifier": "every finite sequence of Write/Sum/Reset/Size/BlockSize calls on one object, every byte string passed to each call", "why_tests_cant": "Tests sample a few messages and a few ways of cutting them; the claim ranges over all messages, all divisions into Write calls and all interleavings with Sum and Reset, which is an infinite set.", "anchors": ["sm3/digest.go:newDigest,Reset,Write,Sum,checkSum", "sm3/block.go:blockGeneric", "sm3/sbox.go"]}
{"id": "C02", "title": "SM3 state serialisation", "statement": "UnmarshalBinary applied to the output of MarshalBinary restores a digest that answers every further history of calls exactly as the original; UnmarshalBinary rejects any input with a wrong magic or a wrong length and accepts every other.", "quantifier": "every reachable SM3 state, every receiving digest, every continuation, every byte string given to UnmarshalBinary", "why_tests_cant": "needs all saved states (every partial block length and chaining value) and all continuations", "anchors": ["sm3/binary.go:MarshalBinary,UnmarshalBinary"]}
{"id": "C03", "title": "md2.New: hash.Hash contract against the standard", "statement": "For every history of calls on a md2.New object, Write accepts all bytes and returns their number, Sum(b) returns b followed by the RFC 1319 MD2 digest of exactly the bytes written since construction or the last Reset, Sum does not disturb later calls, Reset returns to the initial state, Size/BlockSize are constant, and nothing panics.", "quantifier": "every finite sequence of Write/Sum/Reset/Size/BlockSize calls on one object, every byte string passed to each call", "why_tests_cant": "Tests sample a few messages and a few ways of cutting them; the claim ranges over all messages, all divisions into Write calls and all interleavings with Sum and Reset, which is an infinite set.", "anchors": ["md2/digest.go", "md2/sbox.go"]}
{"id": "C04", "title": "MD2 state serialisation", "statement": "UnmarshalBinary after MarshalBinary restores a digest that answers every further history exactly as the original.", "quantifier": "every reachable MD2 state and every continuation", "why_tests_cant": "needs all saved states and all continuations", "anchors": ["md2/binary.go:MarshalBinary,UnmarshalBinary"]}
{"id": "C05", "title": "sha0.New: hash.Hash contract against the standard", "statement": "For every history of calls on a sha0.New object, Write accepts all bytes and returns their number, Sum(b) returns b followed by the FIPS 180 (1993) SHA-0 digest of exactly the bytes written since construction or the last Reset, Sum does not disturb later calls, Reset returns to the initial state, Size/BlockSize are constant, and nothing panics.", "quantifier": "every finite sequence of Write/Sum/Reset/Size/BlockSize calls on one object, every byte string passed to each call", "why_tests_cant": "Tests sample a few messages and a few ways of cutting them; the claim ranges over all messages, all divisions into Write calls and all interleavings with Sum and Reset, which is an infinite set.", "anchors": ["sha0/digest.go", "sha0/utils.go"]}
{"id": "C06", "title": "has160.New: hash.Hash contract against the standard", "statement": "For every history of calls on a has160.New object, Write accepts all bytes and returns their number, Sum(b) returns b followed by the TTAS.KO-12.0011 HAS-160 digest of exactly the bytes written since construction or the last Reset, Sum does not disturb later calls, Reset returns to the initial state, Size/BlockSize are constant, and nothing panics.", "quantifier": "every finite sequence of Write/Sum/Reset/Size/BlockSize calls on one object, every byte string passed to each call", "why_tests_cant": "Tests sample a few messages and a few ways of cutting them; the claim ranges over all messages, all divisions into Write calls and all interleavings with Sum and Reset, which is an infinite set.", "anchors": ["has160/digest.go", "has160/utils.go"]}
{"id": "C07", "title": "ripemd.New128/New160/New256/New320: hash.Hash contract against the standard", "statement": "For every history of calls on a ripemd.New128/New160/New256/New320 object, Write accepts all bytes and returns their number, Sum(b) returns b followed by the RIPEMD-128/160/256/320 digest of exactly the bytes written since construction or the last Reset, Sum does not disturb later calls, Reset returns to the initial state, Size/BlockSize are constant, and nothing panics.", "quantifier": "every finite sequence of Write/Sum/Reset/Size/BlockSize calls on one object, every byte string passed to each call", "why_tests_cant": "Tests sample a few messages and a few ways of cutting them; the claim ranges over all messages, all divisions into Write calls and all interleavings with Sum and Reset, which is an infinite set.", "anchors": ["ripemd/digest128.go", "ripemd/digest160.go", "ripemd/digest256.go", "ripemd/digest320.go"]}
{"id": "C08", "title": "tiger.New/New2 (128,160,192): hash.Hash contract against the standard", "statement": "For every history of calls on a tiger.New/New2 (128,160,192) object, Write accepts all bytes and returns their number, Sum(b) returns b followed by the Tiger / Tiger2 digest of exactly the bytes written since construction or the last Reset, Sum does not disturb later calls, Reset returns to the initial state, Size/BlockSize are constant, and nothing panics.", "quantifier": "every finite sequence of Write/Sum/Reset/Size/BlockSize calls on one object, every byte string passed to each call", "why_tests_cant": "Tests sample a few messages and a few ways of cutting them; the claim ranges over all messages, all divisions into Write calls and all interleavings with Sum and Reset, which is an infinite set.", "anchors": ["tiger/digest.go", "tiger/utils.go"]}
{"id": "C09", "title": "blake256.New/NewWithSalt: hash.Hash contract against the standard", "statement": "For every history of calls on a blake256.New/NewWithSalt object, Write accepts all bytes and returns their number, Sum(b) returns b followed by the salted BLAKE-256/224 digest of exactly the bytes written since construction or the last Reset, Sum does not disturb later calls, Reset returns to the initial state, Size/BlockSize are constant, and nothing panics. In particular Reset leaves the salt in force, as its documentation says.", "quantifier": "every finite sequence of Write/Sum/Reset/Size/BlockSize calls on one object, every byte string passed to each call", "why_tests_cant": "Tests sample a few messages and a few ways of cutting them; the claim ranges over all messages, all divisions into Write calls and all interleavings with Sum and Reset, which is an infinite set.", "anchors": ["blake256/digest.go"]}
{"id": "C10", "title": "blake512.New/NewWithSalt: hash.Hash contract against the standard", "statement": "For every history of calls on a blake512.New/NewWithSalt object, Write accepts all bytes and returns their number, Sum(b) returns b followed by the salted BLAKE-512/384 digest of exactly the bytes written since construction or the last Reset, Sum does not disturb later calls, Reset returns to the initial state, Size/BlockSize are constant, and nothing panics. In particular Reset leaves the salt in force, as its documentation says.", "quantifier": "every finite sequence of Write/Sum/Reset/Size/BlockSize calls on one object, every byte string passed to each call", "why_tests_cant": "Tests sample a few messages and a few ways of cutting them; the claim ranges over all messages, all divisions into Write calls and all interleavings with Sum and Reset, which is an infinite set.", "anchors": ["blake512/digest.go"]}
{"id": "C11", "title": "siphash.New: hash.Hash contract against the standard", "statement": "For every history of calls on a siphash.New object, Write accepts all bytes and returns their number, Sum(b) returns b followed by SipHash-c-d with the object's key of exactly the bytes written since construction or the last Reset, Sum does not disturb later calls, Reset returns to the initial state, Size/BlockSize are constant, and nothing panics.", "quantifier": "every finite sequence of Write/Sum/Reset/Size/BlockSize calls on one object, every byte string passed to each call", "why_tests_cant": "Tests sample a few messages and a few ways of cutting them; the claim ranges over all messages, all divisions into Write calls and all interleavings with Sum and Reset, which is an infinite set.", "anchors": ["siphash/digest.go", "siphash/siphash.go"]}
{"id": "C12", "title": "xxhash32 / xxhash64: hash.Hash contract against the standard", "statement": "For every history of calls on a xxhash32 / xxhash64 object, Write accepts all bytes and returns their number, Sum(b) returns b followed by XXH32 / XXH64 with the object's seed of exactly the bytes written since construction or the last Reset, Sum does not disturb later calls, Reset returns to the initial state, Size/BlockSize are constant, and nothing panics.", "quantifier": "every finite sequence of Write/Sum/Reset/Size/BlockSize calls on one object, every byte string passed to each call", "why_tests_cant": "Tests sample a few messages and a few ways of cutting them; the claim ranges over all messages, all divisions into Write calls and all interleavings with Sum and Reset, which is an infinite set.", "anchors": ["xxhash/xxhash32/digest.go", "xxhash/xxhash64/digest.go"]}
{"id": "C13", "title": "murmur3 New32/New64/New128: hash.Hash contract against the standard", "statement": "For every history of calls on a murmur3 New32/New64/New128 object, Write accepts all bytes and returns their number, Sum(b) returns b followed by MurmurHash3_x86_32 / x64_128 with the object's seed of exactly the bytes written since construction or the last Reset, Sum does not disturb later calls, Reset returns to the initial state, Size/BlockSize are constant, and nothing panics. The number of bytes Sum appends is Size().", "quantifier": "every finite sequence of Write/Sum/Reset/Size/BlockSize calls on one object, every byte string passed to each call", "why_tests_cant": "Tests sample a few messages and a few ways of cutting them; the claim ranges over all messages, all divisions into Write calls and all interleavings with Sum and Reset, which is an infinite set.", "anchors": ["murmur3/"]}
{"id": "C14", "title": "CRC-16 is the cyclic code it names", "statement": "The checksum of any byte string by the MODBUS and X.25 functions is the remainder defined bit by bit by the reflected generator (0xA001 from 0xFFFF; 0x8408 from 0xFFFF complemented), for any way of feeding the table-driven algorithm.", "quantifier": "all byte strings", "why_tests_cant": "a table error or a carry error shows only on some inputs; the claim is about all inputs", "anchors": ["crc16/modbus/modbus.go:Checksum", "crc16/x25/x25.go:Checksum"]}
{"id": "C15", "title": "CRC-16 textual result and facade encoding", "statement": "The hexadecimal text returned for a CRC-16 is four digits and hash.FromString(s).CRC16_X25()/CRC16_Modbus() returns exactly the two big-endian bytes of the checksum, for every input.", "quantifier": "all byte strings", "why_tests_cant": "only inputs whose checksum has leading zero digits expose the defect", "anchors": ["crc16/", "hash/crc16.go"]}
{"id": "C16", "title": "chaskey.New: hash.Hash contract against the standard", "statement": "For every history of calls on a chaskey.New object, Write accepts all bytes and returns their number, Sum(b) returns b followed by the Chaskey MAC under the object's key of exactly the bytes written since construction or the last Reset, Sum does not disturb later calls, Reset returns to the initial state, Size/BlockSize are constant, and nothing panics.", "quantifier": "every finite sequence of Write/Sum/Reset/Size/BlockSize calls on one object, every byte string passed to each call", "why_tests_cant": "Tests sample a few messages and a few ways of cutting them; the claim ranges over all messages, all divisions into Write calls and all interleavings with Sum and Reset, which is an infinite set.", "anchors": ["chaskey/digest.go", "chaskey/chaskey.go"]}
{"id": "C17", "title": "gmac.New: hash.Hash contract against the standard", "statement": "For every history of calls on a gmac.New object, Write accepts all bytes and returns their number, Sum(b) returns b followed by the GMAC tag under the object's cipher, nonce and key of exactly the bytes written since construction or the last Reset, Sum does not disturb later calls, Reset returns to the initial state, Size/BlockSize are constant, and nothing panics.", "quantifier": "every finite sequence of Write/Sum/Reset/Size/BlockSize calls on one object, every byte string passed to each call", "why_tests_cant": "Tests sample a few messages and a few ways of cutting them; the claim ranges over all messages, all divisions into Write calls and all interleavings with Sum and Reset, which is an infinite set.", "anchors": ["gmac/gmac.go", "gmac/gcm/gcm_generic.go"]}
{"id": "C18", "title": "cmac.New: hash.Hash contract against the standard", "statement": "For every history of calls on a cmac.New object, Write accepts all bytes and returns their number, Sum(b) returns b followed by the CMAC tag (NIST SP 800-38B, and its documented generalisation to 256..1024-bit blocks) under the object's cipher of exactly the bytes written since construction or the last Reset, Sum does not disturb later calls, Reset returns to the initial state, Size/BlockSize are constant, and nothing panics.", "quantifier": "every finite sequence of Write/Sum/Reset/Size/BlockSize calls on one object, every byte string passed to each call", "why_tests_cant": "Tests sample a few messages and a few ways of cutting them; the claim ranges over all messages, all divisions into Write calls and all interleavings with Sum and Reset, which is an infinite set.", "anchors": ["cmac/cmac.go"]}
{"id": "C19", "title": "pmac.New: hash.Hash contract against the standard", "statement": "For every history of calls on a pmac.New object, Write accepts all bytes and returns their number, Sum(b) returns b followed by the PMAC tag under the object's cipher of exactly the bytes written since construction or the last Reset, Sum does not disturb later calls, Reset returns to the initial state, Size/BlockSize are constant, and nothing panics.", "quantifier": "every finite sequence of Write/Sum/Reset/Size/BlockSize calls on one object, every byte string passed to each call", "why_tests_cant": "Tests sample a few messages and a few ways of cutting them; the claim ranges over all messages, all divisions into Write calls and all interleavings with Sum and Reset, which is an infinite set.", "anchors": ["pmac/pmac.go"]}
{"id": "C20", "title": "hash_composition.New(h1,h2): hash.Hash contract against the standard", "statement": "For every history of calls on a hash_composition.New(h1,h2) object, Write accepts all bytes and returns their number, Sum(b) returns b followed by h1(h2(message)) of exactly the bytes written since construction or the last Reset, Sum does not disturb later calls, Reset returns to the initial state, Size/BlockSize are constant, and nothing panics.", "quantifier": "every finite sequence of Write/Sum/Reset/Size/BlockSize calls on one object, every byte string passed to each call", "why_tests_cant": "Tests sample a few messages and a few ways of cutting them; the claim ranges over all messages, all divisions into Write calls and all interleavings with Sum and Reset, which is an infinite set.", "anchors": ["hash_composition/hash_composition.go"]}
{"id": "C21", "title": "Rabin fingerprint is the residue of the message polynomial", "statement": "After any sequence of writes the fingerprint equals the message, read as a polynomial over GF(2) with the bits most significant first, reduced modulo the hashing polynomial, as the package documents; degree and table lookups never lose a bit.", "quantifier": "all polynomials accepted by NewTable, all messages, all divisions into writes", "why_tests_cant": "tables have 256 entries per polynomial and any degree; equality with long division must hold for all of them", "anchors": ["rabin/rabin.go", "rabin/table.go", "rabin/poly.go", "rabin/digest.go"]}
{"id": "C22", "title": "Rabin rolling hash depends on the window only", "statement": "With a window of w bytes, after at least w bytes the fingerprint is a function of the last w bytes alone, equal to the fingerprint of those bytes hashed from scratch.", "quantifier": "all windows, polynomials, and message histories", "why_tests_cant": "needs all prefixes", "anchors": ["rabin/rabin.go", "rabin/table.go"]}
{"id": "C23", "title": "Rabin chunker partitions its input", "statement": "The chunks returned by Next, concatenated, are exactly the bytes of the reader, every chunk but the last is between the minimum and maximum length, the last is at most the maximum, Next returns io.EOF exactly when all bytes have been returned, and the partition does not depend on how the reader splits its answers.", "quantifier": "all byte streams, all reader behaviours permitted by io.Reader, all parameter settings", "why_tests_cant": "reader schedules are unbounded; the failing ones need a chunk ending exactly at a buffer or stream boundary", "anchors": ["rabin/chunker.go:NewChunker,Next"]}
{"id": "C24", "title": "Ascon AEAD round trip and authenticity of Open", "statement": "Seal appends the Ascon-128 ciphertext and tag of the plaintext under key, nonce and associated data; Open(nonce, Seal(nonce, pt, ad), ad) returns pt without error; Open succeeds with plaintext pt only on the string that is the encryption of pt, and returns an error on every other; both panic exactly when the nonce does not have 16 bytes. (The buffers do not overlap; for reuse of storage see C58.)", "quantifier": "all keys, nonces, plaintexts, associated data, and all forged ciphertexts", "why_tests_cant": "all lengths around the 8/16-byte rate, all contents", "anchors": ["ascon/aead.go", "ascon/ascon.go"]}
{"id": "C25", "title": "Ascon hash and XOF output streams", "statement": "Ascon-Hash/HashA satisfy the hash.Hash contract; reading an Ascon XOF in any sequence of Read calls yields consecutive bytes of one infinite stream that depends only on the written message.", "quantifier": "all messages, divisions into writes, and sequences of read sizes", "why_tests_cant": "unbounded sequences of reads and writes", "anchors": ["ascon/hash.go", "ascon/ascon.go"]}
{"id": "C26", "title": "Ascon-MAC: hash.Hash contract against the standard", "statement": "For every history of calls on a Ascon-MAC object, Write accepts all bytes and returns their number, Sum(b) returns b followed by the Ascon MAC of the message under the object's key of exactly the bytes written since construction or the last Reset, Sum does not disturb later calls, Reset returns to the initial state, Size/BlockSize are constant, and nothing panics. (The type has no Reset.) Verify accepts exactly the tag of the message written.", "quantifier": "every finite sequence of Write/Sum/Reset/Size/BlockSize calls on one object, every byte string passed to each call", "why_tests_cant": "Tests sample a few messages and a few ways of cutting them; the claim ranges over all messages, all divisions into Write calls and all interleavings with Sum and Reset, which is an infinite set.", "anchors": ["ascon/mac.go"]}
{"id": "C27", "title": "BLAKE3 tree hashing", "statement": "For every message and every way of writing it, Sum returns the BLAKE3 root output: chunks of 1024 bytes combined by the left-balanced binary tree; the extendable output is one stream however it is read.", "quantifier": "all message lengths (in particular those with a deep tree), all divisions into writes, all modes", "why_tests_cant": "tree shape changes with the number of chunks; tests stop at small trees", "anchors": ["blake3/"]}
{"id": "C28", "title": "k12.New: hash.Hash contract against the standard", "statement": "For every history of calls on a k12.New object, Write accepts all bytes and returns their number, Sum(b) returns b followed by KangarooTwelve with the object's customisation string of exactly the bytes written since construction or the last Reset, Sum does not disturb later calls, Reset returns to the initial state, Size/BlockSize are constant, and nothing panics.", "quantifier": "every finite sequence of Write/Sum/Reset/Size/BlockSize calls on one object, every byte string passed to each call", "why_tests_cant": "Tests sample a few messages and a few ways of cutting them; the claim ranges over all messages, all divisions into Write calls and all interleavings with Sum and Reset, which is an infinite set.", "anchors": ["k12/"]}
{"id": "C29", "title": "esch.New256/New384: hash.Hash contract against the standard", "statement": "For every history of calls on a esch.New256/New384 object, Write accepts all bytes and returns their number, Sum(b) returns b followed by the Esch256/Esch384 digest (SPARKLE) of exactly the bytes written since construction or the last Reset, Sum does not disturb later calls, Reset returns to the initial state, Size/BlockSize are constant, and nothing panics.", "quantifier": "every finite sequence of Write/Sum/Reset/Size/BlockSize calls on one object, every byte string passed to each call", "why_tests_cant": "Tests sample a few messages and a few ways of cutting them; the claim ranges over all messages, all divisions into Write calls and all interleavings with Sum and Reset, which is an infinite set.", "anchors": ["esch/"]}
{"id": "C30", "title": "MD6 absorbs the whole message", "statement": "Every byte of the message influences the MD6 computation: the compression function receives each 512-byte block entire, for every message and every way of writing it.", "quantifier": "all messages of any length, both tree and sequential mode", "why_tests_cant": "the loss starts in the second block; the claim is about all positions of all messages", "anchors": ["md6/"]}
{"id": "C31", "title": "lsh256 / lsh512: hash.Hash contract against the standard", "statement": "For every history of calls on a lsh256 / lsh512 object, Write accepts all bytes and returns their number, Sum(b) returns b followed by the LSH-256/LSH-512 family digest (KS X 3262) of exactly the bytes written since construction or the last Reset, Sum does not disturb later calls, Reset returns to the initial state, Size/BlockSize are constant, and nothing panics.", "quantifier": "every finite sequence of Write/Sum/Reset/Size/BlockSize calls on one object, every byte string passed to each call", "why_tests_cant": "Tests sample a few messages and a few ways of cutting them; the claim ranges over all messages, all divisions into Write calls and all interleavings with Sum and Reset, which is an infinite set.", "anchors": ["lsh256/digest.go", "lsh512/digest.go"]}
{"id": "C32", "title": "whirlpool.New/New0/NewT: hash.Hash contract against the standard", "statement": "For every history of calls on a whirlpool.New/New0/NewT object, Write accepts all bytes and returns their number, Sum(b) returns b followed by the Whirlpool digest for the given tables of exactly the bytes written since construction or the last Reset, Sum does not disturb later calls, Reset returns to the initial state, Size/BlockSize are constant, and nothing panics.", "quantifier": "every finite sequence of Write/Sum/Reset/Size/BlockSize calls on one object, every byte string passed to each call", "why_tests_cant": "Tests sample a few messages and a few ways of cutting them; the claim ranges over all messages, all divisions into Write calls and all interleavings with Sum and Reset, which is an infinite set.", "anchors": ["whirlpool/digest.go"]}
{"id": "C33", "title": "The two Streebog implementations", "statement": "gost34112012 (New(32), New(64)) satisfies the hash.Hash contract for GOST R 34.11-2012 and the streebog package returns the same digest for every message.", "quantifier": "all messages and histories", "why_tests_cant": "differences show only on carries across 64-bit words of the checksum", "anchors": ["gost/gost34112012/hash.go", "streebog/digest.go", "streebog/utils.go"]}
{"id": "C34", "title": "GOST R 34.11-2012 state serialisation", "statement": "UnmarshalBinary after MarshalBinary restores a digest answering every further history as the original; whatever UnmarshalBinary accepts can afterwards be used without a panic.", "quantifier": "all reachable states, all accepted byte strings, all continuations", "why_tests_cant": "all saved states and all accepted inputs", "anchors": ["gost/gost34112012/hash.go:MarshalBinary,UnmarshalBinary"]}
{"id": "C35", "title": "gost341194.New(cipher): hash.Hash contract against the standard", "statement": "For every history of calls on a gost341194.New(cipher) object, Write accepts all bytes and returns their number, Sum(b) returns b followed by the GOST R 34.11-94 digest over the given block cipher of exactly the bytes written since construction or the last Reset, Sum does not disturb later calls, Reset returns to the initial state, Size/BlockSize are constant, and nothing panics.", "quantifier": "every finite sequence of Write/Sum/Reset/Size/BlockSize calls on one object, every byte string passed to each call", "why_tests_cant": "Tests sample a few messages and a few ways of cutting them; the claim ranges over all messages, all divisions into Write calls and all interleavings with Sum and Reset, which is an infinite set.", "anchors": ["gost/gost341194/hash.go"]}
{"id": "C36", "title": "Key trees return the key of the asked index", "statement": "For every sequence of Derive/DeriveCached calls, TLSTree and ESPTree return the key the KDF chain defines for the requested sequence number, and the cached flag is true only if the key is the one returned by the previous call.", "quantifier": "all parameter sets, root keys and sequences of requested indices", "why_tests_cant": "cache coherence is a property of histories", "anchors": ["gost/gost34112012256/tlstree.go", "gost/gost34112012256/esptree.go", "gost/gost34112012256/kdf.go"]}
{"id": "C37", "title": "groestl.New: hash.Hash contract against the standard", "statement": "For every history of calls on a groestl.New object, Write accepts all bytes and returns their number, Sum(b) returns b followed by the Groestl digest of the given size of exactly the bytes written since construction or the last Reset, Sum does not disturb later calls, Reset returns to the initial state, Size/BlockSize are constant, and nothing panics. New rejects every size Sum cannot produce.", "quantifier": "every finite sequence of Write/Sum/Reset/Size/BlockSize calls on one object, every byte string passed to each call", "why_tests_cant": "Tests sample a few messages and a few ways of cutting them; the claim ranges over all messages, all divisions into Write calls and all interleavings with Sum and Reset, which is an infinite set.", "anchors": ["groestl/digest.go"]}
{"id": "C38", "title": "jh.New and jh2.New*: hash.Hash contract against the standard", "statement": "For every history of calls on a jh.New and jh2.New* object, Write accepts all bytes and returns their number, Sum(b) returns b followed by the JH digest of exactly the bytes written since construction or the last Reset, Sum does not disturb later calls, Reset returns to the initial state, Size/BlockSize are constant, and nothing panics.", "quantifier": "every finite sequence of Write/Sum/Reset/Size/BlockSize calls on one object, every byte string passed to each call", "why_tests_cant": "Tests sample a few messages and a few ways of cutting them; the claim ranges over all messages, all divisions into Write calls and all interleavings with Sum and Reset, which is an infinite set.", "anchors": ["jh/digest.go", "jh2/digest.go"]}
{"id": "C39", "title": "The three Skein implementations agree and satisfy the hash.Hash contract", "statement": "skein (256/512/1024), skein512 and skeins objects satisfy the hash.Hash contract for Skein, and packages offering the same Skein variant return the same digest for every message.", "quantifier": "every finite sequence of Write/Sum/Reset/Size/BlockSize calls on one object, every byte string passed to each call", "why_tests_cant": "Tests sample a few messages and a few ways of cutting them; the claim ranges over all messages, all divisions into Write calls and all interleavings with Sum and Reset, which is an infinite set.", "anchors": ["skein/skein512.go", "skein512/hash.go", "skeins/digest256.go", "skeins/digest512.go"]}
{"id": "C40", "title": "Threefish decryption inverts encryption", "statement": "For every key, tweak and block, Decrypt(Encrypt(block)) = block and Encrypt(Decrypt(block)) = block, for 256, 512 and 1024-bit Threefish.", "quantifier": "all keys, tweaks, blocks", "why_tests_cant": "2^1024 blocks", "anchors": ["skein/threefish/threefish256_ref.go", "skein/threefish/threefish512_ref.go", "skein/threefish/threefish1024_ref.go"]}
{"id": "C41", "title": "VMAC contract", "statement": "vmac objects satisfy the hash.Hash contract for a function of key, nonce and message; every configuration New accepts can produce a tag without a panic.", "quantifier": "every finite sequence of Write/Sum/Reset/Size/BlockSize calls on one object, every byte string passed to each call, all constructor arguments", "why_tests_cant": "constructor arguments and histories are unbounded", "anchors": ["vmac/vmac.go", "vmac/utils.go"]}
{"id": "C42", "title": "Makwa digest text round trip", "statement": "UnmarshalText(MarshalText(d)) = d for every digest Hash can produce, in particular the work factor is preserved; UnmarshalText returns an error rather than panicking on malformed text.", "quantifier": "all digests, all texts", "why_tests_cant": "all work factors of the form 2*2^k and 3*2^k; all byte strings", "anchors": ["makwa/digest.go", "makwa/makwa.go:wfMant"]}
{"id": "C43", "title": "Makwa password recovery", "statement": "With the private parameters, Recover of an unhashed digest returns a password that CheckPassword accepts for that digest, and never fails on a digest produced by Hash.", "quantifier": "all prime pairs congruent 3 mod 4, passwords, salts, work factors", "why_tests_cant": "number-theoretic claim over all moduli", "anchors": ["makwa/makwa.go:Hash,Recover,sqrtExp,crt,pad"]}
{"id": "C44", "title": "Makwa work-factor extension", "statement": "After Extend(params, d, w') succeeds, CheckPassword accepts the original password; extending is the same as hashing with the higher work factor.", "quantifier": "all digests, work factors, passwords", "why_tests_cant": "fails only for residues with a leading zero byte or for lower targets", "anchors": ["makwa/makwa.go:Extend,CheckPassword"]}
{"id": "C45", "title": "kupyna.New* and NewKmac*: hash.Hash contract against the standard", "statement": "For every history of calls on a kupyna.New* and NewKmac* object, Write accepts all bytes and returns their number, Sum(b) returns b followed by the Kupyna (DSTU 7564) digest / KMAC tag of exactly the bytes written since construction or the last Reset, Sum does not disturb later calls, Reset returns to the initial state, Size/BlockSize are constant, and nothing panics.", "quantifier": "every finite sequence of Write/Sum/Reset/Size/BlockSize calls on one object, every byte string passed to each call", "why_tests_cant": "Tests sample a few messages and a few ways of cutting them; the claim ranges over all messages, all divisions into Write calls and all interleavings with Sum and Reset, which is an infinite set.", "anchors": ["kupyna/kupyna256.go", "kupyna/kmac256.go", "kupyna/kmac384.go", "kupyna/kmac512.go"]}
{"id": "C46", "title": "shavite.New*: hash.Hash contract against the standard", "statement": "For every history of calls on a shavite.New* object, Write accepts all bytes and returns their number, Sum(b) returns b followed by the SHAvite-3 digest of exactly the bytes written since construction or the last Reset, Sum does not disturb later calls, Reset returns to the initial state, Size/BlockSize are constant, and nothing panics.", "quantifier": "every finite sequence of Write/Sum/Reset/Size/BlockSize calls on one object, every byte string passed to each call", "why_tests_cant": "Tests sample a few messages and a few ways of cutting them; the claim ranges over all messages, all divisions into Write calls and all interleavings with Sum and Reset, which is an infinite set.", "anchors": ["shavite/digest256.go", "shavite/digest512.go"]}
{"id": "C47", "title": "bash.New*: hash.Hash contract against the standard", "statement": "For every history of calls on a bash.New* object, Write accepts all bytes and returns their number, Sum(b) returns b followed by the BASH-hash digest (STB 34.101.77) of exactly the bytes written since construction or the last Reset, Sum does not disturb later calls, Reset returns to the initial state, Size/BlockSize are constant, and nothing panics. Constructors reject every size Sum cannot produce.", "quantifier": "every finite sequence of Write/Sum/Reset/Size/BlockSize calls on one object, every byte string passed to each call", "why_tests_cant": "Tests sample a few messages and a few ways of cutting them; the claim ranges over all messages, all divisions into Write calls and all interleavings with Sum and Reset, which is an infinite set.", "anchors": ["bash/digest.go"]}
{"id": "C48", "title": "CubeHash contract and serialisation", "statement": "cubehash objects satisfy the hash.Hash contract for CubeHashi+r/b+f-h, and UnmarshalBinary after MarshalBinary restores an equivalent digest.", "quantifier": "every finite sequence of Write/Sum/Reset/Size/BlockSize calls on one object, every byte string passed to each call; all reachable states", "why_tests_cant": "Tests sample a few messages and a few ways of cutting them; the claim ranges over all messages, all divisions into Write calls and all interleavings with Sum and Reset, which is an infinite set.", "anchors": ["cubehash/digest.go"]}
{"id": "C49", "title": "belt.New: hash.Hash contract against the standard", "statement": "For every history of calls on a belt.New object, Write accepts all bytes and returns their number, Sum(b) returns b followed by the BELT-hash digest (STB 34.101.31) of exactly the bytes written since construction or the last Reset, Sum does not disturb later calls, Reset returns to the initial state, Size/BlockSize are constant, and nothing panics.", "quantifier": "every finite sequence of Write/Sum/Reset/Size/BlockSize calls on one object, every byte string passed to each call", "why_tests_cant": "Tests sample a few messages and a few ways of cutting them; the claim ranges over all messages, all divisions into Write calls and all interleavings with Sum and Reset, which is an infinite set.", "anchors": ["belt/digest.go"]}
{"id": "C50", "title": "Streaming contract of the remaining SHA-3 candidates", "statement": "echo, bmw, fugue, hamsi, luffa, simd, shabal, panama and radio_gatun objects satisfy the hash.Hash contract: Sum is a function of the message alone, independent of how it was cut into writes, of earlier Sum calls and of what was hashed before the last Reset.", "quantifier": "every finite sequence of Write/Sum/Reset/Size/BlockSize calls on one object, every byte string passed to each call", "why_tests_cant": "Tests sample a few messages and a few ways of cutting them; the claim ranges over all messages, all divisions into Write calls and all interleavings with Sum and Reset, which is an infinite set.", "anchors": ["echo/digest.go", "bmw/digest256.go", "fugue/digest.go", "hamsi/digest256.go", "luffa/digest256.go", "simd/digest256.go", "shabal/digest.go", "panama/digest.go", "radio_gatun/digest32.go"]}
{"id": "C51", "title": "Fluent facade of package hash", "statement": "Decoding constructors (FromHexString, FromBase64String) report malformed input in Error, and the encoders ToHexString/ToBase64String invert them; an error once set is still visible after later calls of the chain and no digest is delivered as if it had succeeded.", "quantifier": "all inputs and all chains of calls", "why_tests_cant": "call chains are unbounded", "anchors": ["hash/hash.go", "hash/hash_from.go", "hash/hash_to.go", "hash/hash_use.go", "hash/hash_sum.go"]}
{"id": "C52", "title": "Algorithm registry under concurrency", "statement": "UseHash/DataSet operations from any number of goroutines never panic, and a lookup returns a function that was registered under that name.", "quantifier": "all interleavings of any number of concurrent Add/Remove/Get/getHash steps", "why_tests_cant": "needs all schedules; the race window is between two locked sections", "anchors": ["hash/hash_data_set.go", "hash/hash_helper.go", "hash/hash_use.go"]}
{"id": "C53", "title": "Algorithm identifiers are distinct", "statement": "Type identifiers generated for registered algorithms are pairwise distinct and stable, for any sequence of sequential registrations.", "quantifier": "all sequences of Generate calls", "why_tests_cant": "unbounded sequences", "anchors": ["hash/hash_type_set.go"]}
{"id": "C54", "title": "deepcopy.Copy is deep", "statement": "The value returned by Copy equals its argument on exported data and shares no mutable location with it.", "quantifier": "all values built from pointers, slices, maps, arrays, structs and scalars", "why_tests_cant": "all shapes of values", "anchors": ["tool/deepcopy/deepcopy.go"]}
{"id": "C55", "title": "haval.New*: hash.Hash contract against the standard", "statement": "For every history of calls on a haval.New* object, Write accepts all bytes and returns their number, Sum(b) returns b followed by the HAVAL digest for the given passes and output length of exactly the bytes written since construction or the last Reset, Sum does not disturb later calls, Reset returns to the initial state, Size/BlockSize are constant, and nothing panics.", "quantifier": "every finite sequence of Write/Sum/Reset/Size/BlockSize calls on one object, every byte string passed to each call", "why_tests_cant": "Tests sample a few messages and a few ways of cutting them; the claim ranges over all messages, all divisions into Write calls and all interleavings with Sum and Reset, which is an infinite set.", "anchors": ["haval/digest.go"]}
{"id": "C56", "title": "fsb.New*: hash.Hash contract against the standard", "statement": "For every history of calls on a fsb.New* object, Write accepts all bytes and returns their number, Sum(b) returns b followed by the FSB digest for the given parameter set of exactly the bytes written since construction or the last Reset, Sum does not disturb later calls, Reset returns to the initial state, Size/BlockSize are constant, and nothing panics.", "quantifier": "every finite sequence of Write/Sum/Reset/Size/BlockSize calls on one object, every byte string passed to each call", "why_tests_cant": "Tests sample a few messages and a few ways of cutting them; the claim ranges over all messages, all divisions into Write calls and all interleavings with Sum and Reset, which is an infinite set.", "anchors": ["fsb/digest.go"]}
{"id": "C57", "title": "Ascon Open releases no unverified plaintext", "statement": "When Open reports an error it returns no decrypted plaintext, as the cipher.AEAD convention requires.", "quantifier": "all keys, nonces, associated data and forged ciphertexts", "why_tests_cant": "all forgeries", "anchors": ["ascon/aead.go:Open"]}
{"id": "C58", "title": "Ascon AEAD in-place use", "statement": "Seal(plaintext[:0], nonce, plaintext, ad) and Open(ciphertext[:0], nonce, ciphertext, ad), the storage reuse documented for cipher.AEAD, give the same result as with a separate destination.", "quantifier": "all plaintexts, ciphertexts and capacities of their arrays", "why_tests_cant": "depends on the capacity of the slice, which tests rarely vary", "anchors": ["ascon/aead.go:Seal,Open"]}
{"id": "C59", "title": "skein512 output reader and stream cipher", "statement": "Whatever the division of the message into Write calls and of the output into Read calls, OutputReader delivers the consecutive bytes of the Skein-512 output of the message; XORKeyStream of NewStream XORs the data, however divided, with the Skein-512 output of key and nonce, so that a second stream with the same key and nonce restores it.", "quantifier": "all keys, nonces, messages and divisions into Write, Read and XORKeyStream calls", "why_tests_cant": "all divisions of an unbounded stream, in particular across the 64-byte blocks", "anchors": ["skein512/hash.go:OutputReader,Read,XORKeyStream", "skein512/skein.go:NewStream"]}
{"id": "C60", "title": "skein512 hashes and MACs are Skein-512", "statement": "Every object of package skein512 that takes a message (New, NewHash*, NewMAC) satisfies the hash.Hash contract for Skein-512 with the given output length, key and optional arguments; one configured with NoMsg refuses every Write and outputs the stream of its configuration.", "quantifier": "every finite sequence of Write/Sum/Reset/Size/BlockSize calls, all keys, arguments and output lengths; messages below 2^64 bytes", "why_tests_cant": "all configurations and histories", "anchors": ["skein512/hash.go", "skein512/block.go", "skein512/sbox.go"]}
{"id": "C61", "title": "One-shot functions of package skein", "statement": "Sum512, Sum384, Sum256 and Sum160 return the Skein-512 digest of that size of the message under the key, for every message and key (no key meaning the unkeyed hash).", "quantifier": "all messages and keys below 2^64 bytes", "why_tests_cant": "precomputed initial values and padding of every length", "anchors": ["skein/skein.go:Sum512,Sum384,Sum256,Sum160", "skein/constants.go"]}
{"id": "C62", "title": "belt block cipher is the standard one and invertible", "statement": "BeltEncrypt computes the belt block encryption of STB 34.101.31 for every key and block, the package's decryption undoes it, and so for each key distinct blocks have distinct encryptions.", "quantifier": "all 16-byte blocks, all 32-byte keys", "why_tests_cant": "a test vector fixes one key and one block; 2^384 pairs exist", "anchors": ["belt/utils.go:BeltEncrypt,belt_encrypt,belt_decrypt"]}
{"id": "C63", "title": "One-shot functions of lsh256 and lsh512", "statement": "lsh256.Sum256/Sum224 and lsh512.Sum/Sum384/Sum256/Sum224 return, for every message, the same digest as the object of that size (LSH-256-n and LSH-512-n of KS X 3262).", "quantifier": "all messages", "why_tests_cant": "The test suite does not call them; the claim ranges over all messages.", "anchors": ["lsh256/lsh256.go:Sum256", "lsh256/lsh256.go:Sum224", "lsh512/lsh512.go:Sum", "lsh512/lsh512.go:Sum384", "lsh512/lsh512.go:Sum256", "lsh512/lsh512.go:Sum224"]}
{"id": "C64", "title": "Haraka v2", "statement": "Haraka256 and Haraka512 return the Haraka v2 value of their 32 or 64 input bytes, always 32 bytes long.", "quantifier": "all inputs", "why_tests_cant": "2^256 and 2^512 inputs; the code works on T-tables and shuffled little-endian words", "anchors": ["haraka/haraka.go:Haraka256,Haraka512", "haraka/haraka_ref.go", "haraka/aes.go"]}
{"id": "C65", "title": "Unsalted BLAKE digests", "statement": "Objects from blake256.New, New224, blake512.New and New384 answer like BLAKE-256, -224, -512, -384 of the bytes written since the last Reset.", "quantifier": "all histories", "why_tests_cant": "A test tries a few messages and a few ways to cut them; the claim covers every message and every history of Write, Sum, Reset, Size and BlockSize.", "anchors": ["blake256/blake256.go:New,New224", "blake512/blake512.go:New,New384"]}
{"id": "C66", "title": "MurmurHash3 objects and one-shot functions", "statement": "murmur3 New32 and New128 objects answer like MurmurHash3_x86_32 and _x64_128 for every seed, and Sum32WithSeed, Sum64WithSeed, Sum128WithSeed return those values.", "quantifier": "all histories, all seeds, all messages", "why_tests_cant": "A test tries a few messages and a few ways to cut them; the claim covers every message and every history of Write, Sum, Reset, Size and BlockSize.", "anchors": ["murmur3/murmur32.go", "murmur3/murmur128.go", "murmur3/murmur64.go:Sum64WithSeed"]}
{"id": "C67", "title": "CMAC acceptance and verification", "statement": "cmac.NewWithTagSize succeeds exactly for block sizes 8, 16, 32, 64, 128 and tag sizes from 1 to the block size; the object keeps the hash contract with one function per cipher and tag size; Verify with an 8- or 16-byte block cipher returns true exactly when the tag is the CMAC of the message and the tag size is acceptable.", "quantifier": "all ciphers (abstract block functions), tag sizes, macs, messages and histories", "why_tests_cant": "Any cipher.Block may be passed, and a forged tag is any of 2^128 strings.", "anchors": ["cmac/cmac.go:NewWithTagSize", "cmac/verify.go:Verify"]}
{"id": "C68", "title": "Hash composition over arbitrary hashes", "statement": "For any two contract-keeping hashes, hash_composition.Sum(h1,h2,data) is H1(H2(data)), and the answers of the composed object under every history are determined by the two functions as written out in the specification compRun (each Sum also feeds the inner digest to h1).", "quantifier": "all pairs of hashes, all histories", "why_tests_cant": "The components are arbitrary interface values.", "anchors": ["hash_composition/hash_composition.go:New,Sum"]}
{"id": "C69", "title": "KangarooTwelve without Reset", "statement": "A k12 object that is never Reset answers every history like KangarooTwelve of the bytes written with its customization string, and Read in any pieces yields the one output stream.", "quantifier": "all histories without Reset below 2^63 bytes, all customization strings, all divisions of the output", "why_tests_cant": "The tree switches form at 8192-byte boundaries; any cut can meet one.", "anchors": ["k12/k12.go"]}
{"id": "C70", "title": "BLAKE3 output is one stream", "statement": "A blake3 digest created with a shorter output size returns a prefix of that with a longer one.", "quantifier": "all sizes, all messages below 256 KiB", "why_tests_cant": "Every pair of sizes and every message", "anchors": ["blake3/digest.go:NewWithSize"]}
{"id": "C71", "title": "MD6 digests do not depend on how the message is cut", "statement": "An md6 object answers like one fixed function of the bytes written since the last Reset (written out in the specification), for every size up to 1024, key and number of levels.", "quantifier": "all histories below 2^64 bytes, all keys and levels", "why_tests_cant": "A test tries a few messages and a few ways to cut them; the claim covers every message and every history of Write, Sum, Reset, Size and BlockSize.", "anchors": ["md6/md6.go", "md6/digest.go"]}
{"id": "C72", "title": "GOST R 34.11-2012 objects (package gost34112012)", "statement": "New accepts exactly sizes 32 and 64, and the object answers like Streebog of that size of the bytes written since the last Reset.", "quantifier": "all histories with messages below 2^61 bytes", "why_tests_cant": "A test tries a few messages and a few ways to cut them; the claim covers every message and every history of Write, Sum, Reset, Size and BlockSize.", "anchors": ["gost/gost34112012/hash.go"]}
{"id": "C73", "title": "Saving and restoring gost34112012 objects", "statement": "UnmarshalBinary of the bytes MarshalBinary produced, into any object, restores exactly the saved one, so that every further history is answered alike; UnmarshalBinary returns nil exactly for at least 145 bytes beginning with STREEBOG.", "quantifier": "all reachable objects, all continuations, all byte strings", "why_tests_cant": "A saved state can be any reachable state.", "anchors": ["gost/gost34112012/hash.go:MarshalBinary,UnmarshalBinary"]}
{"id": "C74", "title": "streebog digests do not depend on how the message is cut", "statement": "The Sum of a streebog object is the same for every way to divide the message among Write calls.", "quantifier": "all messages and divisions, both sizes", "why_tests_cant": "A test tries a few messages and a few ways to cut them; the claim covers every message and every history of Write, Sum, Reset, Size and BlockSize.", "anchors": ["streebog/digest.go"]}
{"id": "C75", "title": "ESP key tree", "statement": "For every root key and every sequence of DeriveCached/Derive calls with five-byte indices the ESPTree returns the key of those indices, and DeriveCached reports a cached key exactly when the indices equal those of the previous call.", "quantifier": "all root keys, all call sequences", "why_tests_cant": "Caching makes every answer depend on the history.", "anchors": ["gost/gost34112012256/esptree.go"]}
{"id": "C76", "title": "JH digests (package jh2)", "statement": "The jh2 objects of 28, 32, 48 and 64 bytes answer like JH of that size.", "quantifier": "all histories with messages below 2^64 bytes", "why_tests_cant": "A test tries a few messages and a few ways to cut them; the claim covers every message and every history of Write, Sum, Reset, Size and BlockSize.", "anchors": ["jh2"]}
{"id": "C77", "title": "Streaming of the skeins package", "statement": "A skeins object is, for every history, a function of the bytes written since the last Reset.", "quantifier": "all histories, all initial values", "why_tests_cant": "A test tries a few messages and a few ways to cut them; the claim covers every message and every history of Write, Sum, Reset, Size and BlockSize.", "anchors": ["skeins/digest256.go", "skeins/digest512.go"]}
{"id": "C78", "title": "Kupyna digests", "statement": "kupyna.New256, New384, New512 objects answer like Kupyna-256, -384, -512 (DSTU 7564), the one-shot Sum functions return the same values, and the length field is the 96-bit one below 2^61 bytes.", "quantifier": "all histories, all messages", "why_tests_cant": "A test tries a few messages and a few ways to cut them; the claim covers every message and every history of Write, Sum, Reset, Size and BlockSize.", "anchors": ["kupyna/kupyna256.go", "kupyna/kupyna384.go", "kupyna/kupyna512.go"]}
{"id": "C79", "title": "Kupyna KMAC constructors", "statement": "The KMAC constructors return an object exactly for keys of 32, 48 and 64 bytes, and the generic constructor picks the variant by the length of the key.", "quantifier": "all keys", "why_tests_cant": "all byte strings as keys", "anchors": ["kupyna/kmac.go"]}
{"id": "C80", "title": "SHAvite-3 of a message in one Write", "statement": "New, one Write of the message, Sum: the answer is the SHAvite-3 digest of that size, for all four sizes; the T-table lookups are the AES round on every state.", "quantifier": "all messages below 2^64 bytes, all Sum prefixes", "why_tests_cant": "all messages", "anchors": ["shavite/digest256.go", "shavite/digest512.go", "shavite/utils.go"]}
{"id": "C81", "title": "bash-f permutation", "statement": "The permutation of package bash is bash-f of STB 34.101.77 on every 192-byte state.", "quantifier": "all states", "why_tests_cant": "2^1536 states; the rotation amounts and constants are precomputed", "anchors": ["bash/utils.go:BASHF"]}
{"id": "C82", "title": "Saving and restoring CubeHash objects", "statement": "MarshalBinary then UnmarshalBinary into any object of the same parameters succeeds and the restored object answers every further history like the saved one.", "quantifier": "all parameters that New accepts, all histories", "why_tests_cant": "A saved state can be any reachable state.", "anchors": ["cubehash/digest.go:MarshalBinary,UnmarshalBinary"]}
{"id": "C83", "title": "Panama digest", "statement": "panama.New answers like the Panama hash function.", "quantifier": "all histories", "why_tests_cant": "A test tries a few messages and a few ways to cut them; the claim covers every message and every history of Write, Sum, Reset, Size and BlockSize.", "anchors": ["panama"]}
{"id": "C84", "title": "RadioGatun digests", "statement": "radio_gatun.New32 and New64 answer like RadioGatun[32] and RadioGatun[64].", "quantifier": "all histories", "why_tests_cant": "A test tries a few messages and a few ways to cut them; the claim covers every message and every history of Write, Sum, Reset, Size and BlockSize.", "anchors": ["radio_gatun"]}
{"id": "C85", "title": "Shabal digests", "statement": "shabal.New accepts exactly its multiples of 32 bits up to 512 and the object answers like Shabal of that size.", "quantifier": "all sizes, all histories", "why_tests_cant": "A test tries a few messages and a few ways to cut them; the claim covers every message and every history of Write, Sum, Reset, Size and BlockSize.", "anchors": ["shabal"]}
{"id": "C86", "title": "ECHO digests", "statement": "echo objects of every size of 8 to 512 bits (multiples of 8), with no salt or a 16-byte salt, answer like ECHO of that size.", "quantifier": "all those sizes and salts, all histories", "why_tests_cant": "A test tries a few messages and a few ways to cut them; the claim covers every message and every history of Write, Sum, Reset, Size and BlockSize.", "anchors": ["echo"]}
{"id": "C87", "title": "Blue Midnight Wish digests", "statement": "The four bmw objects answer like BMW-224, -256, -384, -512 and the one-shot functions return the same.", "quantifier": "all histories, all messages", "why_tests_cant": "A test tries a few messages and a few ways to cut them; the claim covers every message and every history of Write, Sum, Reset, Size and BlockSize.", "anchors": ["bmw"]}
{"id": "C88", "title": "Luffa digests", "statement": "The four luffa objects answer like Luffa v2 of those sizes and the one-shot functions return the same.", "quantifier": "all histories, all messages", "why_tests_cant": "A test tries a few messages and a few ways to cut them; the claim covers every message and every history of Write, Sum, Reset, Size and BlockSize.", "anchors": ["luffa"]}
{"id": "C89", "title": "Fugue digests", "statement": "The four fugue objects answer like Fugue of those sizes and the one-shot functions return the same.", "quantifier": "all histories, all messages", "why_tests_cant": "A test tries a few messages and a few ways to cut them; the claim covers every message and every history of Write, Sum, Reset, Size and BlockSize.", "anchors": ["fugue"]}
{"id": "C90", "title": "Hamsi digests", "statement": "The four hamsi objects answer like Hamsi of those sizes and the one-shot functions return the same.", "quantifier": "all histories, all messages", "why_tests_cant": "A test tries a few messages and a few ways to cut them; the claim covers every message and every history of Write, Sum, Reset, Size and BlockSize.", "anchors": ["hamsi"]}
{"id": "C91", "title": "SIMD digests", "statement": "The four simd objects answer like SIMD of those sizes, the one-shot functions return the same, and the fast number-theoretic transform is the transform modulo 257 for every block.", "quantifier": "all histories, all messages, all blocks", "why_tests_cant": "A test tries a few messages and a few ways to cut them; the claim covers every message and every history of Write, Sum, Reset, Size and BlockSize.", "anchors": ["simd"]}
{"id": "C92", "title": "Facade: texts round-trip and malformed texts are reported", "statement": "ToHexString/FromHexString and ToBase64String/FromBase64String restore the data; FromHexString and FromBase64String set Error exactly on texts that are not such an encoding and otherwise load the bytes the text denotes.", "quantifier": "all data, all texts, all prior states of the facade", "why_tests_cant": "all texts", "anchors": ["hash/hash_from.go", "hash/hash_to.go"]}
{"id": "C93", "title": "Facade: streaming and one-shot digests", "statement": "For every contract-keeping digest, NewHash, any division of the message among Write calls, then Sum(b), yields b followed by the digest; FromBytes(m).Checksum(h) yields the digest of m; and Write without NewHash panics.", "quantifier": "all digests, divisions and prefixes", "why_tests_cant": "arbitrary digests and divisions", "anchors": ["hash/hash.go", "hash/hash_sum.go"]}
{"id": "C94", "title": "Registry lookups return registered functions", "statement": "Whatever the goroutines do and however they interleave, a non-nil function that Get returns or getHash calls was registered under that name.", "quantifier": "all programs, all schedules", "why_tests_cant": "The number of interleavings is unbounded.", "anchors": ["hash/hash_data_set.go", "hash/hash_use.go"]}
{"id": "C95", "title": "Chunk boundaries depend on the data only", "statement": "Two rabin chunkers over plain readers with the same data give the same answers to Next, however the readers divide the data; the specified partition is unique and its lengths add up to the data, with every chunk in the size bounds (the last may be shorter).", "quantifier": "all data, reader behaviours, parameters", "why_tests_cant": "A reader may return any number of bytes per call.", "anchors": ["rabin/chunker.go"]}
{"id": "C96", "title": "Makwa accepts the password a digest was made from", "statement": "CheckPassword succeeds for every digest Hash returned with the password it was made from; the base64 variant of the text form loses no byte string.", "quantifier": "all parameters, passwords, salts, modes, byte strings", "why_tests_cant": "all passwords and parameters", "anchors": ["makwa/makwa.go:Hash,CheckPassword", "makwa/digest.go"]}
{"id": "C97", "title": "FSB parameters and memory accesses", "statement": "fsb.New accepts exactly the six sizes with the parameters of the submission, and every matrix column used by compression lies within the table.", "quantifier": "all sizes, states and blocks", "why_tests_cant": "The columns are selected by the data.", "anchors": ["fsb/digest.go"]}
{"id": "C98", "title": "Chaskey and Esch of a message in one Write", "statement": "New, one Write, Sum(b) yields b followed by the Chaskey tag (any key of 16 bytes, 8 or 12 rounds), respectively the Esch256/Esch384 digest.", "quantifier": "all keys, messages, prefixes", "why_tests_cant": "all messages", "anchors": ["chaskey/chaskey.go", "esch/digest.go"]}
{"id": "C99", "title": "xxh3 objects compute XXH3", "statement": "Every object made by the xxh3 constructors (64 and 128 bits; default, with seed, with secret) reports at every Sum the official XXH3 value of the bytes written since the last Reset, however they were cut into Write calls.", "quantifier": "all seeds, secrets of at least 136 bytes, histories and messages", "why_tests_cant": "Seven length classes, a buffer of four stripes, blocks that need not end with it, and a catch-up stripe: the cuts that matter are not sampled.", "anchors": ["xxhash/xxh3/digest64.go", "xxhash/xxh3/digest128.go", "xxhash/xxh3/utils.go"]}
{"id": "C100", "title": "xxh3 exported functions compute XXH3", "statement": "Hash_64bits, Hash_128bits and their WithSeed, WithSecret, WithSecretandSeed forms return the official XXH3 value for every message, and agree with the objects.", "quantifier": "all messages, seeds and secrets", "why_tests_cant": "all lengths and contents", "anchors": ["xxhash/xxh3/utils.go"]}
{"id": "C101", "title": "xxh3 objects: the histories they get right", "statement": "The xxh3 objects report official XXH3 values from 4 bytes on in every history without a Write that panics; Write panics exactly when it takes a non-empty message to a multiple of 256 bytes with 256 to 319 bytes at once; NewWithSecret refuses exactly the secrets below 136 bytes.", "quantifier": "all seeds, secrets, histories, messages below 2^64 bytes", "why_tests_cant": "The panic depends on the cut and the total.", "anchors": ["xxhash/xxh3/digest64.go", "xxhash/xxh3/digest128.go", "xxhash/xxh3/xxh3_64.go", "xxhash/xxh3/xxh3_128.go"]}
{"id": "C102", "title": "xxh3 one-shot functions from 4 bytes on", "statement": "Sum64, Sum64WithSeed, Checksum64, Sum128, Checksum128 never panic and return official XXH3 values from 4 bytes on; the exported Hash_64bits and Hash_128bits families do so from 4 to 240 bytes and for all longer lengths that are not multiples of 64; for the others Hash_64bits leaves the last stripe out.", "quantifier": "all messages below 2^64 bytes, seeds, secrets", "why_tests_cant": "all lengths", "anchors": ["xxhash/xxh3/xxh3_64.go", "xxhash/xxh3/xxh3_128.go", "xxhash/xxh3/utils.go"]}
{"id": "C103", "title": "SM3 derivation function", "statement": "sm3.NewDF objects compute the SM3 derivation function: the first 55 bytes of SM3(1 || 440 || data) || SM3(2 || 440 || data), for every cut of the data into Write calls.", "quantifier": "all data, histories", "why_tests_cant": "all data and cuts", "anchors": ["sm3/rand_df.go"]}
{"id": "C104", "title": "SM3 generator: state update", "statement": "Rand.Generate updates its 440-bit state by addition modulo 2^440 of the hash, the constant and the counter.", "quantifier": "all states, inputs", "why_tests_cant": "The carries depend on secret state; a test sees no state.", "anchors": ["sm3/rand.go"]}
{"id": "C105", "title": "SM3 generator: reseeding", "statement": "Rand.Generate reseeds when more than 2^20 requests were served or more than 600 seconds have passed since the last reseeding, and only then.", "quantifier": "all histories and clock values", "why_tests_cant": "A test would have to wait, and to observe the reseeding.", "anchors": ["sm3/rand.go"]}
{"id": "C106", "title": "SM3 generator: output", "statement": "Rand.Generate overwrites the whole output slice with output of the generator.", "quantifier": "all states, slices, additional inputs", "why_tests_cant": "all slices", "anchors": ["sm3/rand.go"]}
{"id": "C107", "title": "SM3 generator: what it does", "statement": "DF.Sum depends only on the bytes written, not on how they were cut or on earlier Sums; Generate reseeds exactly when its counter has passed 2^20; without reseeding it yields SM3 of the state (with the additional input added byte by byte) in the first 32 bytes of the slice, leaves the others, and keeps both state vectors at 55 bytes.", "quantifier": "all states, histories, clock values, slices, inputs", "why_tests_cant": "all states", "anchors": ["sm3/rand.go", "sm3/rand_df.go"]}
{"id": "C108", "title": "Lyra2 keys (version 2)", "statement": "lyra2re2.Lyra2 fills k with the Lyra2 key of password, salt, time cost, rows and columns, for every choice of them that fits.", "quantifier": "all passwords, salts, key lengths, time costs, rows, columns", "why_tests_cant": "The memory is visited in an order that depends on the data, and rows, columns and passes are unbounded.", "anchors": ["lyra2re2/lyra2re.go:Lyra2"]}
{"id": "C109", "title": "Lyra2 keys (version 1)", "statement": "lyra2re.Lyra2 fills k with the Lyra2 key of all of password, salt and parameters.", "quantifier": "all passwords, salts, key lengths, time costs, rows, columns", "why_tests_cant": "A test vector cannot show which bytes are ignored.", "anchors": ["lyra2re/lyra2re.go:Lyra2"]}
{"id": "C110", "title": "Lyra2: when it panics", "statement": "Both Lyra2 functions return exactly when there are two rows or more, the time cost is 0 or 1 and the padded input fits in the matrix (version 1 also needs the place of its last block); otherwise they panic.", "quantifier": "all lengths, time costs, rows, columns", "why_tests_cant": "all sizes", "anchors": ["lyra2re/lyra2re.go:Lyra2", "lyra2re2/lyra2re.go:Lyra2"]}
{"id": "C111", "title": "Lyra2 fills the key slice", "statement": "Whenever Lyra2 returns, all bytes of k have been written and the old contents had no influence.", "quantifier": "all inputs", "why_tests_cant": "all inputs", "anchors": ["lyra2re/lyra2re.go:squeeze", "lyra2re2/lyra2re.go:squeeze"]}
{"id": "C112", "title": "lyra2re.Sum is Lyra2RE", "statement": "lyra2re.Sum returns BLAKE-256, Keccak-256, Lyra2 (8 rows, 8 columns, version 1), Skein-512-256 and Groestl-256 in sequence, for every message, never an error or a panic.", "quantifier": "all messages", "why_tests_cant": "all messages", "anchors": ["lyra2re/sum.go"]}
{"id": "C113", "title": "lyra2re2.Sum is Lyra2REv2", "statement": "lyra2re2.Sum returns BLAKE-256, Keccak-256, CubeHash-256, Lyra2 (4 rows, 4 columns), Skein-512-256, CubeHash-256 and BMW-256 in sequence, for every message, never an error or a panic.", "quantifier": "all messages", "why_tests_cant": "all messages", "anchors": ["lyra2re2/sum.go"]}
{"id": "C114", "title": "BLAKE-256/BLAKE-224 states survive saving", "statement": "For objects of every blake256 constructor, salted or not: UnmarshalBinary accepts what MarshalBinary returned, and the restored object answers every further history like the saved one, whatever object received it.", "quantifier": "all constructors, salts, histories before and after saving, receiving objects", "why_tests_cant": "all histories, states and receivers", "anchors": ["blake256/binary.go:MarshalBinary,UnmarshalBinary"]}
{"id": "C115", "title": "blake256: which saved states are accepted", "statement": "UnmarshalBinary accepts exactly the 138-byte strings that start with the blake256 identifier; the result depends on those bytes alone, is always a usable object, and saving it again gives the same bytes for states that came from MarshalBinary.", "quantifier": "all byte strings, receivers, histories", "why_tests_cant": "all byte strings", "anchors": ["blake256/binary.go:UnmarshalBinary"]}
{"id": "C116", "title": "blake256: a saved state is accepted only by the function that saved it", "statement": "An object that accepts a saved state reports the digest of the bytes written, under its own function; states of BLAKE-224 are not taken for states of BLAKE-256.", "quantifier": "all histories and pairs of objects", "why_tests_cant": "all histories", "anchors": ["blake256/binary.go"]}
{"id": "C117", "title": "BLAKE-512/BLAKE-384 states survive saving", "statement": "For objects of every blake512 constructor, salted or not: UnmarshalBinary accepts what MarshalBinary returned, and the restored object answers every further history like the saved one, whatever object received it.", "quantifier": "all constructors, salts, histories before and after saving, receiving objects", "why_tests_cant": "all histories, states and receivers", "anchors": ["blake512/binary.go:MarshalBinary,UnmarshalBinary"]}
{"id": "C118", "title": "blake512: which saved states are accepted", "statement": "UnmarshalBinary accepts exactly the 257-byte strings that start with the blake512 identifier; the result depends on those bytes alone, is always a usable object, and saving it again gives the same bytes for states that came from MarshalBinary.", "quantifier": "all byte strings, receivers, histories", "why_tests_cant": "all byte strings", "anchors": ["blake512/binary.go:UnmarshalBinary"]}
{"id": "C119", "title": "blake512: a saved state is accepted only by the function that saved it", "statement": "An object that accepts a saved state reports the digest of the bytes written, under its own function; states of BLAKE-384 are not taken for states of BLAKE-512.", "quantifier": "all histories and pairs of objects", "why_tests_cant": "all histories", "anchors": ["blake512/binary.go"]}
{"id": "C120", "title": "Facade methods compute the algorithm they name", "statement": "Every facade method that names an algorithm of this module (MD2, SM3, HAS160, Blake224 to Blake512, Tiger, Tiger2, LSH256/512 and variants, Murmur, Xxhash, Whirlpool, Gost, Rabin, Siphash, Echo, JH) replaces the data by the digest of the data under that algorithm, and changes neither the stored object nor the error; a refused SipHash key is reported as an error by the general method and panics in the others.", "quantifier": "all data, keys, seeds, parameters, facade values", "why_tests_cant": "all data", "anchors": ["hash/md2.go", "hash/sm3.go", "hash/has160.go", "hash/blake256.go", "hash/blake512.go", "hash/tiger.go", "hash/lsh256.go", "hash/lsh512.go", "hash/murmur3.go", "hash/xxhash.go", "hash/whirlpool.go", "hash/gost.go", "hash/rabin.go", "hash/siphash.go", "hash/echo.go", "hash/jh.go"]}
{"id": "C121", "title": "Facade constructors install the algorithm they name", "statement": "After every method NewX of the facade, any sequence of Write calls and a Sum(b) leaves b followed by the digest under X of the bytes written, and the error as it was.", "quantifier": "all data and divisions, keys, seeds, parameters, facade values", "why_tests_cant": "all data and divisions", "anchors": ["hash/md2.go", "hash/sm3.go", "hash/has160.go", "hash/blake256.go", "hash/blake512.go", "hash/tiger.go", "hash/lsh256.go", "hash/lsh512.go", "hash/murmur3.go", "hash/xxhash.go", "hash/whirlpool.go", "hash/gost.go", "hash/rabin.go", "hash/siphash.go", "hash/echo.go", "hash/jh.go"]}
{"id": "C122", "title": "HMAC over the module's hash functions is RFC 2104", "statement": "For every key, the object crypto/hmac builds from a constructor of this module (MD2, SM3, SHA-0, HAS-160, RIPEMD, Tiger, BLAKE, CubeHash up to 256 bits, LSH, Kupyna, Panama, SIMD) answers every history of Write, Sum, Reset, Size and BlockSize like HMAC (RFC 2104) with the standard block size of that hash; in particular the states it saves through MarshalBinary and restores through UnmarshalBinary at every Reset and Sum are the right ones and are never refused (which would panic).", "quantifier": "all keys, all histories of calls", "why_tests_cant": "all keys and all histories; the save/restore path appears only after a Reset", "anchors": ["hash/hmac.go", "md2/binary.go", "sm3/binary.go", "blake256/binary.go", "blake512/binary.go", "cubehash/digest.go"]}
{"id": "C123", "title": "Facade HMAC", "statement": "Hmac(h, secret) replaces the facade's data by HMAC of it under the secret and changes neither the stored object nor the error; NewHmac(h, secret) followed by any writes and Sum(b) leaves b followed by HMAC of the bytes written.", "quantifier": "all secrets, data, divisions, facade values, every hash function for which the HMAC object is RFC 2104", "why_tests_cant": "all secrets and data", "anchors": ["hash/hmac.go"]}
{"id": "C124", "title": "HMAC table of hash functions", "statement": "HmacHash(h).New() makes an object with the function last registered for h with RegisterHmacHash, or with the one the package registers itself for the numbers 1 to 17, and panics exactly for the other numbers and for a nil function.", "quantifier": "all histories of registrations, all numbers", "why_tests_cant": "all histories of registrations", "anchors": ["hash/hmac.go"]}
{"id": "C125", "title": "HMAC keeps the digest of a long key", "statement": "With every hash function of this module, an HMAC key longer than a block counts with its whole digest: it is not shortened further.", "quantifier": "all keys, all histories of calls", "why_tests_cant": "all keys: a weak key block shows in no single test vector", "anchors": ["fugue/digest.go", "fugue/fugue_test.go", "hash/hmac.go"]}
{"id": "C126", "title": "One-shot functions compute the standard's digest", "statement": "Every exported one-shot function Sum, Sum224, Sum256, ... of the packages md2, sm3, sha0, has160, ripemd, panama, radio_gatun, belt, blake256, blake512, shabal, echo, groestl, haval, cubehash, jh, whirlpool, esch, kangarootwelve and fsb returns the array (or slice) whose bytes are exactly the digest of its argument under the algorithm and size it names, and does not panic.", "quantifier": "all messages (and all keys, sizes, customization strings where the function takes them)", "why_tests_cant": "all messages; a one-shot function that names the wrong constructor, or copies too few bytes, agrees in type with the right one", "anchors": ["md2/md2.go:Sum", "sm3/sm3.go:Sum", "blake256/blake256.go:Sum", "groestl/groestl.go", "haval/haval.go", "cubehash/cubehash.go", "jh", "fsb/fsb.go", "k12"]}
{"id": "C127", "title": "One-shot functions of streebog, skeins and blake3", "statement": "The one-shot functions of the packages streebog, skeins and blake3 return the digest of their argument under the standard: GOST R 34.11-2012, Skein-512 and BLAKE3 (plain, keyed, key derivation); blake3's keyed form refuses exactly the keys that are not 32 bytes.", "quantifier": "all messages, keys, contexts", "why_tests_cant": "all messages", "anchors": ["streebog/streebog.go", "skeins/skeins.go", "blake3/blake3.go"]}
{"id": "C128", "title": "Facade methods for library algorithms use the algorithm they name", "statement": "Given that the Go library and golang.org/x/crypto do what they document: every facade method named after one of their algorithms (MD4, MD5, SHA-1, SHA-2, SHA-3, Keccak, RIPEMD-160, Adler-32, CRC-32, CRC-64, FNV, BLAKE2, SHAKE, cSHAKE) replaces the data by that algorithm's digest and changes nothing else; the New methods install an object that computes it for every division of the input; keys that BLAKE2 does not allow are reported as an error; MD5SHA1 is the 36 bytes MD5 || SHA-1; MD5_16 is the hexadecimal text of the 8 middle bytes of MD5.", "quantifier": "all data and divisions, keys, output lengths, facade values, all libraries that keep their contract", "why_tests_cant": "all data; a method wired to a neighbouring algorithm of the same size, or installing another than it computes, passes most tests", "anchors": ["hash/adler32.go", "hash/blake.go", "hash/crc32.go", "hash/crc64.go", "hash/fnv.go", "hash/keccak.go", "hash/md4.go", "hash/md5.go", "hash/md5sha1.go", "hash/ripemd160.go", "hash/sha.go", "hash/sha3.go", "hash/shake.go", "hash/hash_helper.go"]}
{"id": "C129", "title": "Facade digests are functions of the data", "statement": "Blake2s_128() replaces the data by the BLAKE2s-128 digest of it, and Maphash() on equal data gives equal results.", "quantifier": "all data, all facade values", "why_tests_cant": "all data; the seed is drawn inside the library", "anchors": ["hash/blake.go", "hash/maphash.go"]}
{"id": "C130", "title": "Plug-in algorithms", "statement": "Whatever plug-in packages are loaded, and in whatever order, each keeps an identifier of its own: SumBy and NewBy with it use its algorithm, and String returns its name; every other mode is refused with an error that leaves data and object alone. In particular SumBy(ESCH256) and SumBy(ESCH384) replace the data by its Esch256 and Esch384 digest, and NewBy with a Write and Sum computes it.", "quantifier": "all sequences of plug-ins, modes, data, prefixes, facade values", "why_tests_cant": "all sequences of plug-ins", "anchors": ["hash/hash_use.go", "hash/hash_type_set.go", "hash/hash_data_set.go", "hash/hashing/esch/esch256.go", "hash/hashing/esch/esch384.go"]}
{"id": "C131", "title": "GCM tag", "statement": "GCM.Init with a block cipher, then Auth: the 16 bytes written are the full tag of NIST SP 800-38D for the cipher's hash subkey, the additional data and the ciphertext, XORed with the mask.", "quantifier": "all ciphers, ciphertexts, additional data, masks", "why_tests_cant": "all lengths of both strings, the padding of each, all field products", "anchors": ["gmac/gcm/gcm.go", "gmac/gcm/gcm_generic.go"]}
{"id": "C132", "title": "Counter mode across calls", "statement": "Whatever sequence of Xor, Refill and CopyCTR is called on a CTR object, and however the message is divided, each Xor encrypts its bytes with the next bytes of the key stream E(iv), E(iv+1), ... where only the last ctrSize bytes count (all of them if ctrSize is not positive) and wrap around, the bytes of out behind are left alone, and it panics exactly when out is shorter than in; CopyCTR gives the next unused counter. GCMCounterCrypt does the same with a 32-bit counter and leaves the next counter in its argument; IncCtr adds one modulo 256^len.", "quantifier": "all block ciphers and block sizes, initial values, counter sizes, histories of calls, messages", "why_tests_cant": "all histories and divisions, counters that wrap around", "anchors": ["gmac/gcm/ctr.go", "gmac/gcm/gcm.go", "gmac/gcm/block.go"]}
{"id": "C133", "title": "GCM authenticated encryption", "statement": "DeriveCounter, GCMCounterCrypt of a zero block for the mask, GCMCounterCrypt of the plaintext and Auth together compute the ciphertext and tag of GCM-AE (SP 800-38D, algorithm 4), and GCMCounterCrypt with the same counter decrypts.", "quantifier": "all ciphers, nonces of any length, plaintexts, additional data", "why_tests_cant": "all lengths and contents", "anchors": ["gmac/gcm/gcm.go", "gmac/gcm/gcm_generic.go", "gmac/gcm/ctr.go"]}
{"id": "C134", "title": "GCM functions overwrite their output", "statement": "What DeriveCounter and Auth write depends on their inputs only, not on what the caller's counter array or out buffer held before: the pre-counter block and the tag of SP 800-38D.", "quantifier": "all ciphers, nonces, ciphertexts, additional data, masks, former contents of the buffers", "why_tests_cant": "all former contents of the buffers; tests pass fresh ones", "anchors": ["gmac/gcm/gcm.go", "gmac/gcm/gcm_generic.go", "gmac/gcm/gcm_asm.go"]}
{"id": "C135", "title": "Makwa parameter generation", "statement": "Given that crypto/rand.Prime returns primes of the length asked for with both high bits set, or an error: GenerateParameters(bits) returns, and unless the library fails it returns two different primes congruent 3 modulo 4 and their product, which has exactly that number of bits, so that Recover works with them.", "quantifier": "all numbers of bits, all results of the random source", "why_tests_cant": "all results of the random source", "anchors": ["makwa/params.go"]}
{"id": "C136", "title": "AES-CMAC and AES-PMAC", "statement": "Given that crypto/aes is FIPS 197: the constructors and functions of cmac/aes and pmac/aes accept exactly 16-, 24- and 32-byte keys and tag sizes 1 to 16; Sum returns AES-CMAC (RFC 4493) and AES-PMAC of the message, cut to the tag size; Verify is true exactly for that tag; the objects answer every history of calls with it.", "quantifier": "all keys, messages, tag sizes, claimed tags, histories of calls", "why_tests_cant": "all keys, messages and divisions", "anchors": ["cmac/aes/cmac.go", "pmac/aes/pmac.go"]}
{"id": "C137", "title": "VMAC nonces", "statement": "The tag is computed with the nonce passed to New or to the last successful SetNonce, whatever the caller does with his slices afterwards; SetNonce refuses exactly nonces of 16 bytes and more and then changes nothing; the message survives SetNonce; two different nonces (as numbers) never give the same 16-byte tag for one message.", "quantifier": "all ciphers, nonces, messages, histories of Write, Sum, Reset, SetNonce and changes of the caller's slices", "why_tests_cant": "all histories, including what the caller does with his own memory between the calls", "anchors": ["vmac/vmac.go"]}
{"id": "C138", "title": "Named constructors", "statement": "Every exported constructor named after a variant (cubehash NewHS*/NewSH*, haval New{128..256}_{3,4,5}, shabal, echo, groestl, tiger New/New2 in three sizes, md6 New* and NewWithKey, siphash New/New64/New128/NewWithHashSize, chaskey New/New12, fsb New*, skein512 NewHash*) returns an object that answers every history of calls as that variant of the algorithm; those that drop the error of a bad key return a nil object.", "quantifier": "all constructors of those packages, all keys and sizes, all histories of calls", "why_tests_cant": "all histories; a constructor that passes a neighbouring parameter gives digests of the right length", "anchors": ["cubehash/cubehash.go", "haval/haval.go", "shabal/shabal.go", "echo/echo.go", "groestl/groestl.go", "tiger/tiger.go", "md6/md6.go", "siphash/siphash.go", "chaskey/chaskey.go", "fsb/fsb.go", "skein512/skein.go"]}
{"id": "C139", "title": "One-shot functions of skein256, skein1024, shavite, bash and xxhash", "statement": "Sum160/256/384/512 of skein256 and skein1024 return Skein-256 and Skein-1024 with that much output under the optional key; Sum of the three skein packages returns Skein of the message under the configuration and panics for size 0; Sum224/256/384/512 of shavite return SHAvite-3 and of bash return bash-hash (STB 34.101.77); Sum, SumWithSeed, Checksum and ChecksumWithSeed of xxhash32 and xxhash64 return XXH32 and XXH64, in big-endian order where they return bytes.", "quantifier": "all messages, keys, seeds, sizes, configurations", "why_tests_cant": "all messages", "anchors": ["skein/skein.go", "skein/skein256/skein.go", "skein/skein1024/skein.go", "shavite/shavite.go", "bash/bash.go", "xxhash/xxhash32/xxhash32.go", "xxhash/xxhash64/xxhash64.go"]}
{"id": "C140", "title": "Facade values in several variables", "statement": "A facade value is not changed by calls on other values: programs that keep several values, copy them and interleave calls see for each value what its own chain of calls yields; the bytes given to FromBytes and returned by ToBytes are not modified by any method.", "quantifier": "all programs over any number of variables, all algorithms that satisfy the hash contract", "why_tests_cant": "all programs and interleavings", "anchors": ["hash/hash.go", "hash/hash_from.go", "hash/hash_to.go", "hash/hash_sum.go", "hash/md5.go"]}
{"id": "C141", "title": "gost34112012: the shared work arrays never influence a digest", "statement": "The functions of gost/gost34112012 return arrays of the object, take such arrays as operands while writing them, and Sum works in the arrays of the object it copied. Even so, in every history of Write, Sum and Reset each Sum returns the GOST R 34.11-2012 hash of the bytes written since the last Reset, whatever earlier calls left in the work arrays, and Sum leaves the state as it was.", "quantifier": "all histories, all contents of the work arrays", "why_tests_cant": "every history and every content of the arrays", "anchors": ["gost/gost34112012/hash.go"]}
{"id": "C142", "title": "gost34112012: UnmarshalBinary does not keep the slice it is given", "statement": "As encoding.BinaryUnmarshaler requires, after UnmarshalBinary(data) the object and the array of data have nothing to do with each other: whatever the caller does with data afterwards, the object returns what one with its own copy returns, and no call on the object changes the caller's array.", "quantifier": "all histories of calls, stores and loads, all positions of data in the array", "why_tests_cant": "every later use of the slice", "anchors": ["gost/gost34112012/hash.go"]}
{"id": "C143", "title": "Key trees: a returned key belongs to the caller", "statement": "Each DeriveCached and Derive of ESPTree and TLSTree returns the key of the index asked for in a slice that belongs to the caller alone: stores into it do not change later answers, and later calls do not change its contents.", "quantifier": "all root keys, all histories of calls, stores and loads", "why_tests_cant": "every history and every use of the returned slices", "anchors": ["gost/gost34112012256/esptree.go", "gost/gost34112012256/tlstree.go"]}
{"id": "C144", "title": "k12: the customisation string is the one given to New", "statement": "k12.New and NewWithSize take the customisation string by value: whatever the caller does with the slice afterwards, each Sum is KangarooTwelve of the bytes written with the customisation string that was passed.", "quantifier": "all customisation strings, output sizes and histories of Write, Sum and stores into the slice", "why_tests_cant": "every later use of the slice", "anchors": ["k12/digest.go", "k12/k12.go"]}
{"id": "C145", "title": "hash.DataSet: every answer follows from the changes made before it", "statement": "On a new DataSet used by one goroutine, after any history of Add, Remove, Clean, Has, Get, Names, Len and uses of the map that All returns: Has, Get and lookups in All answer according to the most recent change that concerns the name; Names lists the registered names, each once, in some order; Len is their number; and Clean leaves nothing behind although it deletes from the map it iterates over.", "quantifier": "all histories, names, functions (nil included) and orders of map iteration", "why_tests_cant": "unbounded histories and unspecified iteration order", "anchors": ["hash/hash_data_set.go"]}
{"id": "C146", "title": "hash.DataSet: only Add, Remove and Clean change the set", "statement": "What Has answers is decided by the calls of Add, Remove and Clean alone: in particular, whatever the caller does with the map that All returned changes no answer.", "quantifier": "all histories, including writes to the map that All returned", "why_tests_cant": "every later use of the returned map", "anchors": ["hash/hash_data_set.go"]}
{"id": "C147", "title": "hash: RegisterHmacHash and HmacHash.New may be called from several goroutines", "statement": "Goroutines may call RegisterHmacHash and HmacHash.New at any time: no schedule kills the process or damages the table, and each New calls the constructor registered last for its number.", "quantifier": "all tables, numbers of goroutines, programs and schedules", "why_tests_cant": "every interleaving", "anchors": ["hash/hmac.go"]}
{"id": "C148", "title": "Makwa leaves the caller's memory alone", "statement": "makwa.Hash (and CheckPassword, which calls it) and Recover only read the slices they are given: no byte of the caller's memory changes, no copy of the password stays in it, and the result is that for the password, salt and digest as they were at the call, wherever the slices lie in memory.", "quantifier": "all memories, positions, lengths and capacities of the slices, work factors, modes and moduli", "why_tests_cant": "every layout of the slices in memory", "anchors": ["makwa/makwa.go"]}
{"id": "C149", "title": "Makwa: goroutines may check passwords against one digest", "statement": "Several goroutines may call CheckPassword with the same digest, or Hash with the same salt slice, at the same time: each gets the answer that belongs to its own password.", "quantifier": "all numbers of goroutines, passwords, salts and schedules", "why_tests_cant": "every interleaving", "anchors": ["makwa/makwa.go", "makwa/digest.go"]}
{"id": "C150", "title": "MD6 constructors leave the caller's memory alone", "statement": "md6.NewWithKey and NewMD6 only read the key: the object is the one for the key passed, wherever it lies, and no byte of the caller's memory changes.", "quantifier": "all memories, positions, lengths and capacities of the key, sizes and levels", "why_tests_cant": "every layout of the key in memory", "anchors": ["md6/digest.go", "md6/md6.go"]}
{"id": "C151", "title": "A Makwa digest does not depend on the salt slice after Hash has returned", "statement": "CheckPassword accepts the password for the digest that makwa.Hash returned, and the digest keeps its salt, whatever the caller stores into his memory (the salt slice included) afterwards.", "quantifier": "all memories, slices, passwords, modes, and sequences of later stores", "why_tests_cant": "every later use of the memory", "anchors": ["makwa/makwa.go", "makwa/digest.go"]}
{"id": "C152", "title": "skein512 stream cipher in the caller's memory", "statement": "XORKeyStream of a stream from skein512.NewStream, called with dst and src the same memory, apart, or dst beginning before src, leaves at dst the bytes src held before the call XOR the next bytes of the key stream, whatever the calls before and their lengths, and changes no other byte; encrypting and decrypting in place restores the memory; it panics if dst is shorter than src.", "quantifier": "all keys, nonces, memories, and sequences of calls with slices of any position and length", "why_tests_cant": "all overlaps, lengths and positions in the key stream", "anchors": ["skein512/hash.go", "skein512/skein.go"]}
