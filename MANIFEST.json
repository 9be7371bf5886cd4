{
 "claims": [
  {
   "property": "C01",
   "status": "proved",
   "theorems": [
    "Verif.Props.C01_sm3_refines",
    "Verif.Props.C01_sm3_split",
    "Verif.Props.C01_sm3_oneshot",
    "Verif.Props.C01_sm3_size"
   ],
   "note": "generic block function; assembly variants not modelled"
  },
  {
   "property": "C02",
   "status": "proved",
   "theorems": [
    "Verif.Props.C02_sm3_roundtrip",
    "Verif.Props.C02_sm3_accepts",
    "Verif.Props.C02_sm3_accepted_usable"
   ],
   "note": ""
  },
  {
   "property": "C03",
   "status": "proved",
   "theorems": [
    "Verif.Props.C03_md2_refines",
    "Verif.Props.C03_md2_oneshot"
   ],
   "note": ""
  },
  {
   "property": "C04",
   "status": "proved",
   "theorems": [
    "Verif.Props.C04_md2_roundtrip",
    "Verif.Props.C04_md2_accepts",
    "Verif.Props.C04_md2_accepted_wf"
   ],
   "note": ""
  },
  {
   "property": "C05",
   "status": "proved",
   "theorems": [
    "Verif.Props.C05_sha0_refines",
    "Verif.Props.C05_sha0_oneshot"
   ],
   "note": ""
  },
  {
   "property": "C06",
   "status": "proved",
   "theorems": [
    "Verif.Props.C06_has160_refines",
    "Verif.Props.C06_has160_oneshot"
   ],
   "note": ""
  },
  {
   "property": "C07",
   "status": "proved",
   "theorems": [
    "Verif.Props.C07_ripemd128_refines",
    "Verif.Props.C07_ripemd160_refines",
    "Verif.Props.C07_ripemd256_refines",
    "Verif.Props.C07_ripemd320_refines",
    "Verif.Props.C07_ripemd128_oneshot",
    "Verif.Props.C07_ripemd160_oneshot",
    "Verif.Props.C07_ripemd256_oneshot",
    "Verif.Props.C07_ripemd320_oneshot"
   ],
   "note": ""
  },
  {
   "property": "C08",
   "status": "proved",
   "theorems": [
    "Verif.Props.C08_tiger_refines",
    "Verif.Props.C08_tiger2_refines",
    "Verif.Props.C08_tiger_size"
   ],
   "note": "the four S-boxes are data shared by model and statement (Tiger.boxes); pinned by test vectors"
  },
  {
   "property": "C09",
   "status": "partial",
   "theorems": [
    "Verif.Props.C09_blake256_refines",
    "Verif.Props.C09_blake224_refines",
    "Verif.Props.C09_blake256_salted_partial",
    "Verif.Props.C09_blake224_salted_partial",
    "Verif.Props.C09_blake256_salt_panics",
    "Verif.Props.C09_blake256_reset_drops_salt",
    "Verif.Props.C09_blake256_reset_violated"
   ],
   "note": "unsalted constructors fully proved; for the salted ones the documented Reset behaviour is refuted (Reset clears the salt), everything else proved"
  },
  {
   "property": "C10",
   "status": "partial",
   "theorems": [
    "Verif.Props.C10_blake512_refines",
    "Verif.Props.C10_blake384_refines",
    "Verif.Props.C10_blake512_salted_partial",
    "Verif.Props.C10_blake384_salted_partial",
    "Verif.Props.C10_blake512_salt_panics",
    "Verif.Props.C10_blake512_reset_drops_salt",
    "Verif.Props.C10_blake512_reset_violated"
   ],
   "note": "as C09"
  },
  {
   "property": "C100",
   "status": "partial",
   "theorems": [
    "Verif.Props.xxh3_Hash_violated",
    "Verif.Props.xxh3_Hash_short_violated",
    "Verif.Props.xxh3_Hash_64bits_partial",
    "Verif.Props.xxh3_Hash_128bits_partial",
    "Verif.Props.xxh3_Hash_64bits_long"
   ],
   "note": "False of the code: lengths over 240 that are multiples of 64 (the last stripe is left out) and lengths 0 to 3. Proved for all other lengths."
  },
  {
   "property": "C101",
   "status": "proved",
   "theorems": [
    "Verif.Props.xxh3_seed_partial",
    "Verif.Props.xxh3_secret_partial",
    "Verif.Props.xxh3_write_panics_iff"
   ],
   "note": "The theorems state the property."
  },
  {
   "property": "C102",
   "status": "proved",
   "theorems": [
    "Verif.Props.xxh3_oneshot",
    "Verif.Props.xxh3_Hash_64bits_partial",
    "Verif.Props.xxh3_Hash_128bits_partial",
    "Verif.Props.xxh3_Hash_64bits_long"
   ],
   "note": "The theorems state the property."
  },
  {
   "property": "C103",
   "status": "partial",
   "theorems": [
    "Verif.Props.sm3df_violated",
    "Verif.Props.sm3df_exact_partial"
   ],
   "note": "False of the code: checkSum copies the second hash over the beginning instead of the end, so the last 23 bytes are zero. Proved: the exact function, for every history."
  },
  {
   "property": "C104",
   "status": "partial",
   "theorems": [
    "Verif.Props.sm3rand_add_violated",
    "Verif.Props.sm3rand_add_partial",
    "Verif.Props.beAdd_exact"
   ],
   "note": "False of the code: the byte sums overflow before they are widened, so no carry ever moves. Proved: the exact (carryless) addition, and addition modulo 2^440 when no byte overflows."
  },
  {
   "property": "C105",
   "status": "partial",
   "theorems": [
    "Verif.Props.sm3rand_time_violated",
    "Verif.Props.sm3rand_reseed_iff"
   ],
   "note": "False of the code: it subtracts seconds within the minute, so the time limit never triggers. Proved: reseeding exactly when the counter has passed 2^20."
  },
  {
   "property": "C106",
   "status": "partial",
   "theorems": [
    "Verif.Props.sm3rand_long_violated",
    "Verif.Props.sm3rand_output_partial",
    "Verif.Props.sm3rand_generate"
   ],
   "note": "False of the code for slices of more than 32 bytes: the rest is left as it was. Proved for slices of up to 32 bytes."
  },
  {
   "property": "C107",
   "status": "proved",
   "theorems": [
    "Verif.Props.sm3df_exact_partial",
    "Verif.Props.sm3rand_reseed_iff",
    "Verif.Props.sm3rand_generate",
    "Verif.Props.sm3rand_long_violated",
    "Verif.Props.sm3rand_new_ok"
   ],
   "note": "The theorems state the property."
  },
  {
   "property": "C108",
   "status": "partial",
   "theorems": [
    "Verif.Props.C108_lyra2_partial",
    "Verif.Props.C108_time_cost_violated",
    "Verif.Props.C108_trailing_bytes_violated"
   ],
   "note": "False of the code: every time cost above 1 panics (remainder of a negative number), and the last len % 8 bytes of password and salt are ignored. Proved: the Lyra2 key for time cost 0 and 1 and lengths that are multiples of 8, all rows, columns and key lengths."
  },
  {
   "property": "C109",
   "status": "partial",
   "theorems": [
    "Verif.Props.C109_lyra2v1_partial",
    "Verif.Props.C109_first_block_only_violated",
    "Verif.Props.C108_time_cost_violated",
    "Verif.Props.C108_trailing_bytes_violated"
   ],
   "note": "False of the code: input blocks after the first are read 64 words apart instead of 8 (as in the original Lyra2RE), so a salt after 64 bytes of password is ignored. Proved: the exact function, and Lyra2 for one-block inputs."
  },
  {
   "property": "C11",
   "status": "partial",
   "theorems": [
    "Verif.Props.C11_siphash_partial",
    "Verif.Props.C11_siphash_new",
    "Verif.Props.C11_siphash_reset_continues",
    "Verif.Props.C11_siphash_reset_violated"
   ],
   "note": "everything but Reset proved; Reset provably does not restore the keyed state"
  },
  {
   "property": "C110",
   "status": "proved",
   "theorems": [
    "Verif.Props.C110_lyra2_panics"
   ],
   "note": "For fewer than 2^62 rows (a Go slice cannot have more)."
  },
  {
   "property": "C111",
   "status": "proved",
   "theorems": [
    "Verif.Props.C111_lyra2_output"
   ],
   "note": "The theorem states the property."
  },
  {
   "property": "C112",
   "status": "proved",
   "theorems": [
    "Verif.Props.C112_lyra2re_sum"
   ],
   "note": "Keccak-256 is in golang.org/x/crypto and is a parameter of the theorem."
  },
  {
   "property": "C113",
   "status": "proved",
   "theorems": [
    "Verif.Props.C113_lyra2re2_sum"
   ],
   "note": "Keccak-256 is in golang.org/x/crypto and is a parameter of the theorem."
  },
  {
   "property": "C114",
   "status": "proved",
   "theorems": [
    "Verif.Props.C114_blake256_roundtrip",
    "Verif.Props.C114_blake224_roundtrip"
   ],
   "note": "The theorems state the property."
  },
  {
   "property": "C115",
   "status": "proved",
   "theorems": [
    "Verif.Props.C115_blake256_accepts",
    "Verif.Props.C115_blake256_receiver",
    "Verif.Props.C115_blake256_accepted_wellformed",
    "Verif.Props.C115_blake256_resave"
   ],
   "note": "The theorems state the property."
  },
  {
   "property": "C116",
   "status": "partial",
   "theorems": [
    "Verif.Props.C116_blake256_kind_violated",
    "Verif.Props.C116_blake256_accepts_other"
   ],
   "note": "False of the code: neither the size nor the initial value is saved, so a BLAKE-256 object accepts every BLAKE-224 state and then reports a value that is neither digest."
  },
  {
   "property": "C117",
   "status": "proved",
   "theorems": [
    "Verif.Props.C117_blake512_roundtrip",
    "Verif.Props.C117_blake384_roundtrip"
   ],
   "note": "The theorems state the property."
  },
  {
   "property": "C118",
   "status": "proved",
   "theorems": [
    "Verif.Props.C118_blake512_accepts",
    "Verif.Props.C118_blake512_receiver",
    "Verif.Props.C118_blake512_accepted_wellformed",
    "Verif.Props.C118_blake512_resave"
   ],
   "note": "The theorems state the property."
  },
  {
   "property": "C119",
   "status": "partial",
   "theorems": [
    "Verif.Props.C119_blake512_kind_violated",
    "Verif.Props.C119_blake512_accepts_other"
   ],
   "note": "False of the code, as C116: a BLAKE-512 object accepts every BLAKE-384 state."
  },
  {
   "property": "C12",
   "status": "proved",
   "theorems": [
    "Verif.Props.C12_xxh32_refines",
    "Verif.Props.C12_xxh64_refines",
    "Verif.Props.C12_xxh32_checksum",
    "Verif.Props.C12_xxh64_checksum"
   ],
   "note": "messages below 2^64 bytes (64-bit counter); xxh3 not modelled"
  },
  {
   "property": "C120",
   "status": "proved",
   "theorems": [
    "Verif.Props.C120_MD2",
    "Verif.Props.C120_SM3",
    "Verif.Props.C120_HAS160",
    "Verif.Props.C120_Blake256",
    "Verif.Props.C120_Blake224",
    "Verif.Props.C120_Blake512",
    "Verif.Props.C120_Blake384",
    "Verif.Props.C120_Tiger",
    "Verif.Props.C120_Tiger2",
    "Verif.Props.C120_LSH256",
    "Verif.Props.C120_LSH256_224",
    "Verif.Props.C120_LSH512",
    "Verif.Props.C120_LSH512_384",
    "Verif.Props.C120_LSH512_256",
    "Verif.Props.C120_LSH512_224",
    "Verif.Props.C120_Murmur32",
    "Verif.Props.C120_Murmur32WithSeed",
    "Verif.Props.C120_Murmur64",
    "Verif.Props.C120_Murmur64WithSeed",
    "Verif.Props.C120_Murmur128",
    "Verif.Props.C120_Murmur128WithSeed",
    "Verif.Props.C120_Xxhash32",
    "Verif.Props.C120_Xxhash64",
    "Verif.Props.C120_Whirlpool",
    "Verif.Props.C120_Gost341194",
    "Verif.Props.C120_Gost34112012256",
    "Verif.Props.C120_Gost34112012512",
    "Verif.Props.C120_Gost34112012",
    "Verif.Props.C120_Rabin",
    "Verif.Props.C120_Siphash64",
    "Verif.Props.C120_Siphash128",
    "Verif.Props.C120_Echo224",
    "Verif.Props.C120_Echo256",
    "Verif.Props.C120_Echo384",
    "Verif.Props.C120_Echo512",
    "Verif.Props.C120_JH_partial",
    "Verif.Props.C120_SiphashWith",
    "Verif.Props.C120_Siphash_panics"
   ],
   "note": "For JH under the condition of C38 (64 bytes of room behind the slices); for xxHash, Whirlpool and GOST below 2^60 bytes or more."
  },
  {
   "property": "C121",
   "status": "proved",
   "theorems": [
    "Verif.Props.C121_NewMD2",
    "Verif.Props.C121_NewSM3",
    "Verif.Props.C121_NewHAS160",
    "Verif.Props.C121_NewBlake256",
    "Verif.Props.C121_NewBlake224",
    "Verif.Props.C121_NewBlake512",
    "Verif.Props.C121_NewBlake384",
    "Verif.Props.C121_NewTiger",
    "Verif.Props.C121_NewTiger2",
    "Verif.Props.C121_NewLSH256",
    "Verif.Props.C121_NewLSH256_224",
    "Verif.Props.C121_NewLSH512",
    "Verif.Props.C121_NewLSH512_384",
    "Verif.Props.C121_NewLSH512_256",
    "Verif.Props.C121_NewLSH512_224",
    "Verif.Props.C121_NewMurmur32",
    "Verif.Props.C121_NewMurmur32WithSeed",
    "Verif.Props.C121_NewMurmur64",
    "Verif.Props.C121_NewMurmur64WithSeed",
    "Verif.Props.C121_NewMurmur128",
    "Verif.Props.C121_NewMurmur128WithSeed",
    "Verif.Props.C121_NewXxhash32",
    "Verif.Props.C121_NewXxhash64",
    "Verif.Props.C121_NewWhirlpool",
    "Verif.Props.C121_NewGost341194",
    "Verif.Props.C121_NewGost34112012256",
    "Verif.Props.C121_NewGost34112012512",
    "Verif.Props.C121_NewGost34112012",
    "Verif.Props.C121_NewRabin",
    "Verif.Props.C121_NewSiphash64",
    "Verif.Props.C121_NewSiphash128",
    "Verif.Props.C121_NewEcho224",
    "Verif.Props.C121_NewEcho256",
    "Verif.Props.C121_NewEcho384",
    "Verif.Props.C121_NewEcho512",
    "Verif.Props.C121_NewJH_partial",
    "Verif.Props.C121_NewSiphashWith"
   ],
   "note": "As C120."
  },
  {
   "property": "C122",
   "status": "proved",
   "theorems": [
    "Verif.Props.C122_hmac_md2",
    "Verif.Props.C122_hmac_sm3",
    "Verif.Props.C122_hmac_blake256",
    "Verif.Props.C122_hmac_blake224",
    "Verif.Props.C122_hmac_blake512",
    "Verif.Props.C122_hmac_blake384",
    "Verif.Props.C122_hmac_cubehash",
    "Verif.Props.C122_hmac_sha0",
    "Verif.Props.C122_hmac_has160",
    "Verif.Props.C122_hmac_ripemd128",
    "Verif.Props.C122_hmac_ripemd160",
    "Verif.Props.C122_hmac_ripemd256",
    "Verif.Props.C122_hmac_ripemd320",
    "Verif.Props.C122_hmac_tiger",
    "Verif.Props.C122_hmac_tiger2",
    "Verif.Props.C122_hmac_lsh256",
    "Verif.Props.C122_hmac_lsh512",
    "Verif.Props.C122_hmac_kupyna",
    "Verif.Props.C122_hmac_panama",
    "Verif.Props.C122_hmac_simd"
   ],
   "note": "crypto/hmac is modelled from its source (Go 1.20). Other hash functions of the module that keep their contract follow from HMAC.correct_of_refines."
  },
  {
   "property": "C123",
   "status": "proved",
   "theorems": [
    "Verif.Props.C123_facade_hmac",
    "Verif.Props.C123_facade_new_hmac"
   ],
   "note": ""
  },
  {
   "property": "C124",
   "status": "proved",
   "theorems": [
    "Verif.Props.C124_registry",
    "Verif.Props.C124_initial"
   ],
   "note": "The table is modelled for one goroutine; the map has no lock."
  },
  {
   "property": "C125",
   "status": "partial",
   "theorems": [
    "Verif.Props.C125_fugue_hmac_violated"
   ],
   "note": "False of the code: for Fugue (blocks of 4 bytes, digests of 28 to 64) every HMAC key is equivalent to one of 4 bytes. For the hash functions of C122 the digest is no longer than the block, and the property holds by C122."
  },
  {
   "property": "C126",
   "status": "proved",
   "theorems": [
    "Verif.Props.C126_md2Sum",
    "Verif.Props.C126_sm3Sum",
    "Verif.Props.C126_sha0Sum",
    "Verif.Props.C126_has160Sum",
    "Verif.Props.C126_ripemdSum128",
    "Verif.Props.C126_ripemdSum160",
    "Verif.Props.C126_ripemdSum256",
    "Verif.Props.C126_ripemdSum320",
    "Verif.Props.C126_panamaSum",
    "Verif.Props.C126_radioGatunSum32",
    "Verif.Props.C126_radioGatunSum64",
    "Verif.Props.C126_beltSum",
    "Verif.Props.C126_blake256Sum",
    "Verif.Props.C126_blake256Sum224",
    "Verif.Props.C126_blake512Sum",
    "Verif.Props.C126_blake512Sum384",
    "Verif.Props.C126_shabalSum192",
    "Verif.Props.C126_shabalSum224",
    "Verif.Props.C126_shabalSum256",
    "Verif.Props.C126_shabalSum384",
    "Verif.Props.C126_shabalSum512",
    "Verif.Props.C126_echoSum224",
    "Verif.Props.C126_echoSum256",
    "Verif.Props.C126_echoSum384",
    "Verif.Props.C126_echoSum512",
    "Verif.Props.C126_groestlSum224",
    "Verif.Props.C126_groestlSum256",
    "Verif.Props.C126_groestlSum384",
    "Verif.Props.C126_groestlSum512",
    "Verif.Props.C126_havalSum128_3",
    "Verif.Props.C126_havalSum128_4",
    "Verif.Props.C126_havalSum128_5",
    "Verif.Props.C126_havalSum160_3",
    "Verif.Props.C126_havalSum160_4",
    "Verif.Props.C126_havalSum160_5",
    "Verif.Props.C126_havalSum192_3",
    "Verif.Props.C126_havalSum192_4",
    "Verif.Props.C126_havalSum192_5",
    "Verif.Props.C126_havalSum224_3",
    "Verif.Props.C126_havalSum224_4",
    "Verif.Props.C126_havalSum224_5",
    "Verif.Props.C126_havalSum256_3",
    "Verif.Props.C126_havalSum256_4",
    "Verif.Props.C126_havalSum256_5",
    "Verif.Props.C126_cubehashSumHS512",
    "Verif.Props.C126_cubehashSumHS384",
    "Verif.Props.C126_cubehashSumHS256",
    "Verif.Props.C126_cubehashSumHS224",
    "Verif.Props.C126_cubehashSumHS192",
    "Verif.Props.C126_cubehashSumHS160",
    "Verif.Props.C126_cubehashSumHS128",
    "Verif.Props.C126_cubehashSumSH512",
    "Verif.Props.C126_cubehashSumSH256",
    "Verif.Props.C126_cubehashSumSH224",
    "Verif.Props.C126_cubehashSumSH192",
    "Verif.Props.C126_jh2Sum224",
    "Verif.Props.C126_jh2Sum256",
    "Verif.Props.C126_jh2Sum384",
    "Verif.Props.C126_jh2Sum512",
    "Verif.Props.C126_whirlpoolSum",
    "Verif.Props.C126_whirlpoolSum0",
    "Verif.Props.C126_whirlpoolSum1",
    "Verif.Props.C126_jhSum",
    "Verif.Props.C126_eschSum256",
    "Verif.Props.C126_eschSum384",
    "Verif.Props.C126_k12SumWithSize",
    "Verif.Props.C126_k12Sum",
    "Verif.Props.C126_fsbSum",
    "Verif.Props.C126_fsbSumN"
   ],
   "note": "The lengths are bounded only as the standards bound them (at least 2^60 bytes; FSB 2^29)."
  },
  {
   "property": "C127",
   "status": "partial",
   "theorems": [
    "Verif.Props.C127_streebog_partial",
    "Verif.Props.C127_skeins_partial",
    "Verif.Props.C127_blake3_partial",
    "Verif.Props.C127_streebog_violated",
    "Verif.Props.C127_skeins_violated"
   ],
   "note": "False of the code for streebog (messages whose checksum carries, C33) and skeins (messages that fill their last block, C39); proved for the others. blake3 is proved below 256 KiB."
  },
  {
   "property": "C128",
   "status": "proved",
   "theorems": [
    "Verif.Props.C128_MD4",
    "Verif.Props.C128_MD5",
    "Verif.Props.C128_SHA1",
    "Verif.Props.C128_SHA224",
    "Verif.Props.C128_SHA256",
    "Verif.Props.C128_SHA384",
    "Verif.Props.C128_SHA512",
    "Verif.Props.C128_SHA512_224",
    "Verif.Props.C128_SHA512_256",
    "Verif.Props.C128_SHA3_224",
    "Verif.Props.C128_SHA3_256",
    "Verif.Props.C128_SHA3_384",
    "Verif.Props.C128_SHA3_512",
    "Verif.Props.C128_Keccak256",
    "Verif.Props.C128_Keccak512",
    "Verif.Props.C128_Ripemd160",
    "Verif.Props.C128_Adler32",
    "Verif.Props.C128_CRC32_IEEE",
    "Verif.Props.C128_CRC32_Castagnoli",
    "Verif.Props.C128_CRC32_Koopman",
    "Verif.Props.C128_CRC64_ISO",
    "Verif.Props.C128_CRC64_ECMA",
    "Verif.Props.C128_Fnv32",
    "Verif.Props.C128_Fnv32a",
    "Verif.Props.C128_Fnv64",
    "Verif.Props.C128_Fnv64a",
    "Verif.Props.C128_Fnv128",
    "Verif.Props.C128_Fnv128a",
    "Verif.Props.C128_Blake2b_256",
    "Verif.Props.C128_Blake2b_384",
    "Verif.Props.C128_Blake2b_512",
    "Verif.Props.C128_Blake2s_256",
    "Verif.Props.C128_NewBlake2s_128",
    "Verif.Props.C128_Shake128",
    "Verif.Props.C128_CShake128",
    "Verif.Props.C128_Shake256",
    "Verif.Props.C128_CShake256",
    "Verif.Props.C128_MD5SHA1",
    "Verif.Props.C128_MD5_16"
   ],
   "note": "Under the hypothesis LibOK, that the libraries (not in the repository) do what they document; refLib_ok shows that it can be met."
  },
  {
   "property": "C129",
   "status": "partial",
   "theorems": [
    "Verif.Props.C129_NewMaphash_partial",
    "Verif.Props.C129_Maphash_violated",
    "Verif.Props.C129_Blake2s_128_violated"
   ],
   "note": "False of the code: Blake2s_128() always reports an error and leaves the data (the library requires a key), and Maphash() draws a new seed at each call. The object of NewMaphash is consistent."
  },
  {
   "property": "C13",
   "status": "partial",
   "theorems": [
    "Verif.Props.C13_murmur32_refines",
    "Verif.Props.C13_murmur128_refines",
    "Verif.Props.C13_murmur64_partial",
    "Verif.Props.C13_murmur64_size_violated",
    "Verif.Props.C13_murmur64_refines_violated",
    "Verif.Props.C13_sum32WithSeed",
    "Verif.Props.C13_sum128WithSeed",
    "Verif.Props.C13_sum64WithSeed"
   ],
   "note": "all proved for New32 and New128; for New64 everything but Size(), which is 16 although Sum appends 8 bytes"
  },
  {
   "property": "C130",
   "status": "proved",
   "theorems": [
    "Verif.Props.C130_plugins",
    "Verif.Props.C130_unknown",
    "Verif.Props.C130_esch",
    "Verif.Props.C130_esch_names"
   ],
   "note": "Initialisation in one goroutine; concurrent use of the tables is C52, C53. The streaming use is stated for one Write, as esch is wrong for some divisions (C29)."
  },
  {
   "property": "C131",
   "status": "proved",
   "theorems": [
    "Verif.Props.C131_auth"
   ],
   "note": "The Go code (gcm_generic.go); the assembly of amd64 and arm64 is not modelled."
  },
  {
   "property": "C132",
   "status": "proved",
   "theorems": [
    "Verif.Props.C132_incCtr",
    "Verif.Props.C132_ctr",
    "Verif.Props.C132_counterCrypt"
   ],
   "note": "iv as long as a block (what the callers pass); out and in do not partly overlap."
  },
  {
   "property": "C133",
   "status": "proved",
   "theorems": [
    "Verif.Props.C133_seal",
    "Verif.Props.C133_inverse",
    "Verif.Props.C133_decrypt"
   ],
   "note": "The sequence of calls is that of crypto/cipher; the package itself has no Seal."
  },
  {
   "property": "C134",
   "status": "partial",
   "theorems": [
    "Verif.Props.C134_auth_go",
    "Verif.Props.C134_deriveCounter_partial",
    "Verif.Props.C134_deriveCounter_violated",
    "Verif.Props.C134_auth_asm",
    "Verif.Props.C134_auth_asm_partial",
    "Verif.Props.C134_deriveCounter_asm_partial",
    "Verif.Props.C134_auth_asm_violated"
   ],
   "note": "False of the code: DeriveCounter leaves bytes 12 to 14 of the array as they were for a 12-byte nonce (both versions), and around the assembly (amd64) Auth starts GHASH from what out held. Proved: Auth in Go; everything for buffers that are zero (what gmac.New passes). The assembly routines are represented by what they are for."
  },
  {
   "property": "C135",
   "status": "partial",
   "theorems": [
    "Verif.Props.C135_params_partial",
    "Verif.Props.C135_error",
    "Verif.Props.C135_small",
    "Verif.Props.C135_returns_partial",
    "Verif.Props.C135_recover_partial",
    "Verif.Props.C135_distinct_violated",
    "Verif.Props.C135_returns_violated"
   ],
   "note": "False of the code: the two primes are not compared (for 4 bits they are always both 3), and for 8 bits the loop never ends, as 13 is the only candidate. Proved: everything else about parameters that are returned; errors come only from the library; termination if the library ever returns a suitable prime. crypto/rand.Prime is a parameter."
  },
  {
   "property": "C136",
   "status": "partial",
   "theorems": [
    "Verif.Props.C136_cmac_new",
    "Verif.Props.C136_cmac",
    "Verif.Props.C136_cmac_full",
    "Verif.Props.C136_cmac_verify",
    "Verif.Props.C136_cmac_sum",
    "Verif.Props.C136_pmac_new",
    "Verif.Props.C136_pmac_partial",
    "Verif.Props.C136_pmac_full",
    "Verif.Props.C136_pmac_verify",
    "Verif.Props.C136_pmac_sum"
   ],
   "note": "Everything for cmac/aes and the functions of pmac/aes; the objects of pmac/aes have the fault of C19 (Sum disturbs the object), so their theorem is for histories without a second use after Sum. crypto/aes is assumed to be FIPS 197, which the specification states in full."
  },
  {
   "property": "C137",
   "status": "partial",
   "theorems": [
    "Verif.Props.C137_nonce_partial",
    "Verif.Props.C137_nonce_aliased_violated",
    "Verif.Props.vmac16_inj"
   ],
   "note": "Proved for callers who do not write into the slice in use as the nonce; for the others the claim is false, because New and SetNonce keep the slice: C137_nonce_aliased_violated, for every cipher that is a permutation and every other nonce of the same length."
  },
  {
   "property": "C138",
   "status": "partial",
   "theorems": [
    "Verif.Props.C138_cubehash_partial",
    "Verif.Props.C138_cubehash_hs512x_violated",
    "Verif.Props.C138_haval",
    "Verif.Props.C138_shabal",
    "Verif.Props.C138_echo",
    "Verif.Props.C138_groestl",
    "Verif.Props.C138_tiger",
    "Verif.Props.C138_md6_partial",
    "Verif.Props.C138_siphash_partial",
    "Verif.Props.C138_chaskey_partial",
    "Verif.Props.C138_fsb_partial",
    "Verif.Props.C138_skein512"
   ],
   "note": "All 63 constructors pass the parameters their names say. Partial where the package itself is wrong for some histories (siphash Reset, chaskey divided writes, md6 from 512 bytes on, fsb very long writes) and for cubehash.NewHS512x, which computes something else. Lengths: groestl below 2^60, skein512 below 2^64 bytes."
  },
  {
   "property": "C139",
   "status": "partial",
   "theorems": [
    "Verif.Props.C139_skein256",
    "Verif.Props.C139_skein1024",
    "Verif.Props.C139_skein_sum",
    "Verif.Props.C139_shavite",
    "Verif.Props.C139_xxhash",
    "Verif.Props.C139_bash_partial",
    "Verif.Props.C139_bash_violated"
   ],
   "note": "bash: only messages shorter than one block; longer ones get a wrong digest (C139_bash_violated). The others in full, for messages and keys below 2^64 bytes."
  },
  {
   "property": "C14",
   "status": "proved",
   "theorems": [
    "Verif.Props.C14_modbus",
    "Verif.Props.C14_x25",
    "Verif.Props.C14_modbus_residue",
    "Verif.Props.C14_x25_residue",
    "Verif.Props.C14_modbus_burst",
    "Verif.Props.C14_x25_burst"
   ],
   "note": ""
  },
  {
   "property": "C140",
   "status": "partial",
   "theorems": [
    "Verif.Props.C140_shared",
    "Verif.Props.C140_apart",
    "Verif.Props.C140_bytes_kept",
    "Verif.Props.C140_branch_violated",
    "Verif.Props.C140_input_aliased_violated",
    "Verif.Props.C140_output_aliased_violated"
   ],
   "note": "Independence holds for values that were not derived from one another (C140_apart) and for bytes the caller leaves alone (C140_bytes_kept); two values derived from one share its digest object (C140_branch_violated), FromBytes and ToBytes share their arrays with the caller. C140_shared says exactly what is seen in all cases."
  },
  {
   "property": "C141",
   "status": "proved",
   "theorems": [
    "Verif.Props.C141_refines",
    "Verif.Props.C141_scratch",
    "Verif.Props.C141_lengths"
   ],
   "note": "Byte-level heap model of gost34112012: blockXor, ps, l, e, g, add512bit, Write, Sum, Reset with the arrays they return and overwrite."
  },
  {
   "property": "C142",
   "status": "partial",
   "theorems": [
    "Verif.Props.C142_end_partial",
    "Verif.Props.C142_calls_partial",
    "Verif.Props.C142_restored_partial",
    "Verif.Props.C142_store_violated",
    "Verif.Props.C142_write_violated"
   ],
   "note": "Violated: UnmarshalBinary keeps data[145:] as its buffer, so a later store of the caller into data changes the object (C142_store_violated) and a later Write overwrites the caller's bytes behind data (C142_write_violated). Proved for histories in which the caller leaves the array alone (C142_restored_partial, C142_calls_partial) and, with what the caller finds in its array, when data reaches to the end of its array (C142_end_partial)."
  },
  {
   "property": "C143",
   "status": "partial",
   "theorems": [
    "Verif.Props.C143_esp_partial",
    "Verif.Props.C143_tls_partial",
    "Verif.Props.C143_esp_stored",
    "Verif.Props.C143_esp_violated"
   ],
   "note": "Violated: DeriveCached returns the slice the tree keeps, so a caller that wipes or changes a returned key makes later DeriveCached and Derive calls for that index return the changed bytes (C143_esp_stored, for every root, index, position and byte; C143_esp_violated). Proved for every history in which the caller stores only into slices from Derive, ESPTree and TLSTree (from a first request of number 0; other first requests fail already by C36)."
  },
  {
   "property": "C144",
   "status": "partial",
   "theorems": [
    "Verif.Props.C144_current",
    "Verif.Props.C144_untouched_partial",
    "Verif.Props.C144_store_violated"
   ],
   "note": "Violated: the object keeps the caller's slice (and its clone copies the slice onto itself), so a store into it after New changes later digests (C144_store_violated). C144_current says exactly what is returned in every history without Reset; C144_untouched_partial is the contract for callers who leave the slice alone. Histories with Reset: C28."
  },
  {
   "property": "C145",
   "status": "proved",
   "theorems": [
    "Verif.Props.C145_answers",
    "Verif.Props.C145_total",
    "Verif.Props.C145_names_len"
   ],
   "note": "Every history of one goroutine, every order of map iteration. Concurrent use: the Registry properties."
  },
  {
   "property": "C146",
   "status": "partial",
   "theorems": [
    "Verif.Props.C146_readonly_partial",
    "Verif.Props.C146_isolation_violated"
   ],
   "note": "Violated: All returns the map of the set itself, so a caller that writes to it registers or removes names without Add, Remove or the lock (C146_isolation_violated). C146_readonly_partial is the property for callers that only read the map."
  },
  {
   "property": "C147",
   "status": "partial",
   "theorems": [
    "Verif.Props.C147_lookups_partial",
    "Verif.Props.C147_concurrent_violated",
    "Verif.Props.C147_serial"
   ],
   "note": "Violated: the table has no lock, so a registration next to a registration or a lookup, even of different numbers, can kill the process (C147_concurrent_violated; the Go runtime reports it on a best-effort basis). C147_lookups_partial: after the registrations, any number of goroutines may look up under every schedule, and each gets the registered constructors."
  },
  {
   "property": "C148",
   "status": "partial",
   "theorems": [
    "Verif.Props.C148_result_partial",
    "Verif.Props.C148_memory_partial",
    "Verif.Props.C148_leak_violated",
    "Verif.Props.C148_overlap_violated",
    "Verif.Props.C148_recover",
    "Verif.Props.C148_recover_leak_violated"
   ],
   "note": "Violated: Hash appends to the caller's salt slice. Whenever it succeeds and the slice has spare capacity for the password, the (pre-hashed) password stands in the caller's memory behind the salt afterwards (C148_leak_violated, for all inputs); and if the password itself is stored there the digest is wrong and CheckPassword rejects the password (C148_overlap_violated). C148_result_partial: the digest is right when the password is apart from the spare capacity; C148_memory_partial: nothing outside the spare capacity is ever written, and nothing at all if the password does not fit. Recover has the same append: its result is right in every layout (C148_recover), and the recovered password stays behind the salt (C148_recover_leak_violated)."
  },
  {
   "property": "C149",
   "status": "partial",
   "theorems": [
    "Verif.Props.C149_schedules_partial",
    "Verif.Props.C149_three_turns",
    "Verif.Props.C149_parsed_spare",
    "Verif.Props.C149_race_violated"
   ],
   "note": "Violated: the goroutines build their KDF inputs in the same spare capacity behind the salt, so a right password can be rejected (C149_race_violated); digests parsed from text have such spare capacity (C149_parsed_spare: 6 bytes for a 16-byte salt). C149_schedules_partial: every schedule is right when the passwords are longer than the spare capacity. Appends and the reading of the KDF input are one step each in the model."
  },
  {
   "property": "C15",
   "status": "partial",
   "theorems": [
    "Verif.Props.C15_modbus_text_partial",
    "Verif.Props.C15_x25_text_partial",
    "Verif.Props.C15_modbus_padded",
    "Verif.Props.C15_x25_padded",
    "Verif.Props.C15_modbus_facade_partial",
    "Verif.Props.C15_x25_facade_partial",
    "Verif.Props.C15_violated"
   ],
   "note": "the property is false of the code (leading zeros are dropped); proved: exactly when it holds and what happens otherwise"
  },
  {
   "property": "C150",
   "status": "partial",
   "theorems": [
    "Verif.Props.C150_object",
    "Verif.Props.C150_memory_partial",
    "Verif.Props.C150_zeroed_violated",
    "Verif.Props.C150_message_violated"
   ],
   "note": "Violated: the key is padded by append(key, 0x00), so every byte behind a shorter key, up to the capacity of its slice and 64 bytes from its beginning, is set to zero (C150_zeroed_violated); a caller with key and message in one slice gets the same object for all messages of a length (C150_message_violated). C150_object: the object itself is the one for the key passed; C150_memory_partial: no change if the key has 64 bytes or no spare capacity, and never any outside that range."
  },
  {
   "property": "C151",
   "status": "partial",
   "theorems": [
    "Verif.Props.C151_untouched_partial",
    "Verif.Props.C151_shared_violated",
    "Verif.Props.C151_reuse_violated"
   ],
   "note": "Violated: the digest keeps the caller's salt slice, so a store into it changes the digest (C151_shared_violated, for all digests), and the right password can be rejected (C151_reuse_violated). C151_untouched_partial: any other stores into the caller's memory leave the digest as it was and CheckPassword accepts the password."
  },
  {
   "property": "C152",
   "status": "proved",
   "theorems": [
    "Verif.Props.C152_memory",
    "Verif.Props.C152_inplace",
    "Verif.Props.C152_panic",
    "Verif.Props.C152_overlap_sharp"
   ],
   "note": "C152_overlap_sharp: the condition on the slices is needed (a destination one byte behind the source gives something else; cipher.Stream rules such overlaps out)."
  },
  {
   "property": "C16",
   "status": "partial",
   "theorems": [
    "Verif.Props.C16_chaskey_new",
    "Verif.Props.C16_chaskey_partial",
    "Verif.Props.C16_chaskey_oneshot",
    "Verif.Props.C16_chaskey_reset_zero_key",
    "Verif.Props.C16_chaskey_split_violated",
    "Verif.Props.C16_chaskey_empty_write_violated",
    "Verif.Props.C16_chaskey_stale_violated",
    "Verif.Props.C16_chaskey_reset_violated"
   ],
   "note": "proved for every message written in one piece (and pieces below one block); other divisions and Reset are refuted by theorems"
  },
  {
   "property": "C17",
   "status": "partial",
   "theorems": [
    "Verif.Props.C17_gmac_new",
    "Verif.Props.C17_gmac_partial",
    "Verif.Props.C17_gmac_exact",
    "Verif.Props.C17_gmac_sum_length",
    "Verif.Props.C17_gmac_prefix_violated",
    "Verif.Props.C17_gmac_split_violated"
   ],
   "note": "Proved against SP 800-38D (GHASH over GF(2^128), every 128-bit block cipher, every nonce; the 4-bit tables and the byte-wise reduction are proved equal to Algorithm 1) for histories writing after whole blocks only with Sum(nil); C17_gmac_exact gives the tag for every sequence of writes. False otherwise: split writes miscount the length (C17_gmac_split_violated) and Sum(b) with b non-empty returns len(b) extra bytes (C17_gmac_prefix_violated). The assembly implementations of gcm are not modelled."
  },
  {
   "property": "C18",
   "status": "partial",
   "theorems": [
    "Verif.Props.C18_cmac_new",
    "Verif.Props.C18_cmac_contract",
    "Verif.Props.C18_cmac_partial",
    "Verif.Props.C18_cmac_verify",
    "Verif.Props.C18_cmac_large_violated"
   ],
   "note": "every cipher (a parameter) with 64- and 128-bit blocks: full contract, Sum and Verify. 256/512/1024-bit blocks: contract with the field constant cut to a byte, refuted for the documented polynomials"
  },
  {
   "property": "C19",
   "status": "partial",
   "theorems": [
    "Verif.Props.C19_pmac_new",
    "Verif.Props.C19_pmac_contract_partial",
    "Verif.Props.C19_pmac_partial",
    "Verif.Props.C19_pmac_verify",
    "Verif.Props.C19_pmac_sum_twice",
    "Verif.Props.C19_pmac_violated",
    "Verif.Props.C19_pmac_long_panics",
    "Verif.Props.C19_pmac_64_violated"
   ],
   "note": "every cipher with 128-bit blocks, histories with Reset between a Sum and the next Write or Sum, up to 32 GiB: contract and Verify. Refuted: Sum changes the object (second Sum differs), 64-bit blocks use the wrong field, more than 2^(2bs-1) blocks panic"
  },
  {
   "property": "C20",
   "status": "partial",
   "theorems": [
    "Verif.Props.C20_composition_exact",
    "Verif.Props.C20_composition_partial",
    "Verif.Props.C20_composition_oneshot",
    "Verif.Props.C20_composition_sum_mutates",
    "Verif.Props.C20_composition_violated"
   ],
   "note": "exact behaviour proved for all components; the contract holds iff Sum is called at most once between Resets, because Sum writes into the outer object"
  },
  {
   "property": "C21",
   "status": "proved",
   "theorems": [
    "Verif.Props.C21_newTable",
    "Verif.Props.C21_rabin_refines",
    "Verif.Props.C21_rabin_sum64",
    "Verif.Props.C21_rabin_sum64_lt"
   ],
   "note": "polynomials, division: Mathlib"
  },
  {
   "property": "C22",
   "status": "proved",
   "theorems": [
    "Verif.Props.C22_rabin_window",
    "Verif.Props.C22_rabin_history",
    "Verif.Props.C22_rabin_fresh"
   ],
   "note": ""
  },
  {
   "property": "C23",
   "status": "partial",
   "theorems": [
    "Verif.Props.C23_chunker_partial",
    "Verif.Props.C23_chunks_partition",
    "Verif.Props.C23_cut_unique",
    "Verif.Props.C23_chunker_min_eq_window",
    "Verif.Props.C23_reader_independent",
    "Verif.Props.C23_phantom",
    "Verif.Props.C23_phantom_violated",
    "Verif.Props.C23_eager_violated"
   ],
   "note": "for all plain readers the chunks partition the data independently of the schedule; the code adds a spurious (0,nil) at an exact boundary and loses bytes when io.EOF comes with data (both refuted by theorems)"
  },
  {
   "property": "C24",
   "status": "proved",
   "theorems": [
    "Verif.Props.C24_ascon_seal",
    "Verif.Props.C24_ascon_open",
    "Verif.Props.C24_ascon_roundtrip",
    "Verif.Props.C24_ascon_length",
    "Verif.Props.C24_ascon_panics"
   ],
   "note": "only Ascon-128 exists in the code; generic permutation"
  },
  {
   "property": "C25",
   "status": "proved",
   "theorems": [
    "Verif.Props.C25_ascon_hash",
    "Verif.Props.C25_ascon_hasha",
    "Verif.Props.C25_ascon_xof"
   ],
   "note": "objects come from the constructors; buffer invariants included"
  },
  {
   "property": "C26",
   "status": "proved",
   "theorems": [
    "Verif.Props.C26_ascon_mac",
    "Verif.Props.C26_ascon_verify",
    "Verif.Props.C26_ascon_new"
   ],
   "note": "the type has no Reset"
  },
  {
   "property": "C27",
   "status": "partial",
   "theorems": [
    "Verif.Props.C27_blake3_modes_partial",
    "Verif.Props.C27_blake3_partial",
    "Verif.Props.C27_blake3_keyed_partial",
    "Verif.Props.C27_blake3_derive_partial",
    "Verif.Props.C27_blake3_stream",
    "Verif.Props.C27_blake3_size_prefix",
    "Verif.Props.C27_blake3_collision",
    "Verif.Props.C27_blake3_violated"
   ],
   "note": "all four modes and every output size refine BLAKE3 for messages below 256 KiB; the bound is sharp: after Write(254 KiB), Write(2 KiB) the uint8 offset of the ninth chaining value wraps and the digest no longer depends on the first 128 KiB (collision theorem), so the unrestricted property is refuted"
  },
  {
   "property": "C28",
   "status": "partial",
   "theorems": [
    "Verif.Props.C28_k12_partial",
    "Verif.Props.C28_k12_noReset",
    "Verif.Props.C28_k12_stream",
    "Verif.Props.C28_k12_reset_violated",
    "Verif.Props.C28_k12_negative_violated"
   ],
   "note": "every customisation string and output size: all histories without Reset, and those with Resets whose data fit the first 8192-byte chunk, against KT128 of RFC 9861 (Keccak-p[1600,12], sponge, tree; the unrolled in-place permutation is proved equal to FIPS 202, the assembly one is not modelled). Reset after a second chunk was begun is refuted."
  },
  {
   "property": "C29",
   "status": "partial",
   "theorems": [
    "Verif.Props.C29_esch_partial",
    "Verif.Props.C29_esch_new",
    "Verif.Props.C29_esch_oneshot",
    "Verif.Props.C29_esch_split_violated",
    "Verif.Props.C29_esch_empty_write_violated"
   ],
   "note": "proved for every history in which each Sum follows an empty message, a length that is not a multiple of 16, or a single Write; the other divisions are refuted by theorems"
  },
  {
   "property": "C30",
   "status": "partial",
   "theorems": [
    "Verif.Props.C30_md6_function",
    "Verif.Props.C30_md6_short_partial",
    "Verif.Props.C30_md6_violated",
    "Verif.Props.C30_md6_collision"
   ],
   "note": "the object computes one fixed function of the message for every history, size, key and level limit; messages below 512 bytes get standard MD6. For longer ones the claim is refuted: the last 128 bytes of every block after the first never reach the compression function"
  },
  {
   "property": "C31",
   "status": "proved",
   "theorems": [
    "Verif.Props.C31_lsh256_contract",
    "Verif.Props.C31_lsh256_224_contract",
    "Verif.Props.C31_lsh512_contract",
    "Verif.Props.C31_lsh512_384_contract",
    "Verif.Props.C31_lsh512_256_contract",
    "Verif.Props.C31_lsh512_224_contract"
   ],
   "note": "All six constructors, every history, no bound; step constants and initial values are derived in the specification and proved equal to the tables."
  },
  {
   "property": "C32",
   "status": "proved",
   "theorems": [
    "Verif.Props.C32_whirlpool_contract",
    "Verif.Props.C32_whirlpool0_contract",
    "Verif.Props.C32_whirlpoolT_contract"
   ],
   "note": "All three constructors against an independent matrix specification of Whirlpool, for every history whose single writes are shorter than 2^60 bytes; no bound on the total (256-bit counter proved modulo 2^256)."
  },
  {
   "property": "C33",
   "status": "partial",
   "theorems": [
    "Verif.Props.C33_gost34112012",
    "Verif.Props.C33_gost34112012_new",
    "Verif.Props.C33_streebog_partial",
    "Verif.Props.C33_streebog_chunks",
    "Verif.Props.C33_short_carrySafe",
    "Verif.Props.C33_agree_partial",
    "Verif.Props.C33_streebog_violated"
   ],
   "note": "gost34112012 satisfies the contract for messages below 2^61 bytes. Package streebog loses a carry in its checksum addition: it is proved right exactly on messages whose checksum additions never ripple a carry through a word, and shown wrong on a two-block message."
  },
  {
   "property": "C34",
   "status": "partial",
   "theorems": [
    "Verif.Props.C34_roundTrip",
    "Verif.Props.C34_accepts",
    "Verif.Props.C34_safe_partial",
    "Verif.Props.C34_violated"
   ],
   "note": "Round trip proved for all reachable states and receivers. Accepted inputs with 64 or more buffered bytes make the next Sum panic (violation); all others are proved panic-free."
  },
  {
   "property": "C35",
   "status": "proved",
   "theorems": [
    "Verif.Props.C35_gost341194_contract"
   ],
   "note": "every cipher with 64-bit blocks (a parameter), every history with messages below 2^61 bytes; step function, checksum and length proved equal to RFC 5831"
  },
  {
   "property": "C36",
   "status": "partial",
   "theorems": [
    "Verif.Props.C36_esp",
    "Verif.Props.C36_esp_panics",
    "Verif.Props.C36_tls_partial",
    "Verif.Props.C36_tls_first",
    "Verif.Props.C36_tls_violated"
   ],
   "note": "ESPTree proved for all histories. TLSTree proved for all histories whose first request is 0 or has a bit under a mask; for every other first request it returns 32 zero bytes whatever the root key, flagged as cached (violation)."
  },
  {
   "property": "C37",
   "status": "partial",
   "theorems": [
    "Verif.Props.C37_groestl_contract_partial",
    "Verif.Props.C37_groestl_new_violated"
   ],
   "note": "Full contract against the Groestl specification (byte-matrix form) for all sizes 8..512 bits in whole bytes, messages below 2^60 bytes. The last sentence of the property is false of the code: New accepts every negative multiple of 8 bits and Sum then panics (C37_groestl_new_violated)."
  },
  {
   "property": "C38",
   "status": "partial",
   "theorems": [
    "Verif.Props.C38_jh2_contract",
    "Verif.Props.C38_jh_contract_partial",
    "Verif.Props.C38_jh_aligned_partial",
    "Verif.Props.C38_jh_violated"
   ],
   "note": "jh2: full contract for all four sizes against the nibble-level JH standard (grouping, S-boxes, L, P_8, round constants by iterating R_6), messages below 2^64 bytes. jh: same on histories that never leave an open block open, or when slices have spare capacity; refuted in general: two short writes panic."
  },
  {
   "property": "C39",
   "status": "partial",
   "theorems": [
    "Verif.Props.C39_skein_partial",
    "Verif.Props.C39_skein_new512_partial",
    "Verif.Props.C39_skein_oneshot",
    "Verif.Props.C39_skein_sum_without_write_violated",
    "Verif.Props.C39_skein512",
    "Verif.Props.C39_skein512_nomsg",
    "Verif.Props.C39_skeins_streaming",
    "Verif.Props.C39_skeins_partial",
    "Verif.Props.C39_skeins_hs256_partial",
    "Verif.Props.C39_skeins_full_block_violated"
   ],
   "note": "skein512: full contract. skein, skein256, skein1024: contract when every Sum follows a Write since the last Reset, refuted otherwise. skeins: digest is a function of the message for every history; it is Skein except on positive multiples of the block size, where it is refuted"
  },
  {
   "property": "C40",
   "status": "proved",
   "theorems": [
    "Verif.Props.C40_decrypt_encrypt",
    "Verif.Props.C40_encrypt_decrypt",
    "Verif.Props.C40_new",
    "Verif.Props.C40_threefish"
   ],
   "note": "skein/threefish. For all keys, tweaks and blocks of the three sizes: Decrypt inverts Encrypt and Encrypt inverts Decrypt; NewCipher accepts exactly 32/64/128 byte keys; Encrypt equals Threefish of the Skein 1.3 paper. The unrolled Go statements are modelled statement by statement (instruction lists)."
  },
  {
   "property": "C41",
   "status": "partial",
   "theorems": [
    "Verif.Props.C41_vmac_partial",
    "Verif.Props.C41_vmac_accepted_violated"
   ],
   "note": "every cipher (a parameter), every non-empty nonce below 16 bytes, tag sizes 8 and 16: full contract for VMAC (draft-krovetz-vmac-01). Every other configuration New accepts (empty nonce, sizes 0, negative, 24 and above) is proved to panic in Sum"
  },
  {
   "property": "C42",
   "status": "partial",
   "theorems": [
    "Verif.Props.C42_makwa_text_partial",
    "Verif.Props.C42_makwa_b64",
    "Verif.Props.C42_makwa_text_violated",
    "Verif.Props.C42_makwa_negative_violated",
    "Verif.Props.C42_makwa_panic_violated"
   ],
   "note": "The code violates the property: work factors 3*2^k (k>0) come back as 3^(k+1), a negative PostHashLen comes back as 0, and UnmarshalText panics on malformed texts. Proved: all other fields always survive, and the work factor survives exactly when it is 3 or a power of two."
  },
  {
   "property": "C43",
   "status": "partial",
   "theorems": [
    "Verif.Props.C43_makwa_recover_partial",
    "Verif.Props.C43_makwa_hash_check",
    "Verif.Props.C43_makwa_recover_violated"
   ],
   "note": "Proved for every pair of distinct primes congruent 3 mod 4 whose product has a bit length divisible by 8; violated otherwise (a concrete 1886-bit modulus is exhibited). HMAC is a parameter."
  },
  {
   "property": "C44",
   "status": "partial",
   "theorems": [
    "Verif.Props.C44_makwa_extend_partial",
    "Verif.Props.C44_makwa_lower",
    "Verif.Props.C44_makwa_extend_violated",
    "Verif.Props.C44_makwa_target_violated"
   ],
   "note": "Exact: the extended digest is accepted iff the hash at the higher work factor does not begin with a zero byte; a concrete rejected extension and the missing validation of the target are proved as violations."
  },
  {
   "property": "C45",
   "status": "partial",
   "theorems": [
    "Verif.Props.C45_kupyna",
    "Verif.Props.C45_kupyna_sum",
    "Verif.Props.C45_kupyna_enc",
    "Verif.Props.C45_kmac_partial",
    "Verif.Props.C45_kmac_new",
    "Verif.Props.C45_kmac_sum_violated",
    "Verif.Props.C45_kmac_reset_violated"
   ],
   "note": "The three hash objects and Sum256/384/512 satisfy the contract for every history (against DSTU 7564 on bytes). KMAC: exact tag for every key, message and division into Writes, for one Sum; false for a second Sum (Sum writes into the shared hash object) and after Reset (the key is lost): both proved."
  },
  {
   "property": "C46",
   "status": "partial",
   "theorems": [
    "Verif.Props.C46_shavite224_partial",
    "Verif.Props.C46_shavite256_partial",
    "Verif.Props.C46_shavite384_partial",
    "Verif.Props.C46_shavite512_partial",
    "Verif.Props.C46_shavite_oneshot",
    "Verif.Props.C46_shavite_aes",
    "Verif.Props.C46_shavite_violated"
   ],
   "note": "The code violates the property: buffered bytes are counted when buffered and again when the block is complete, so the HAIFA bit counter is wrong after a Write that completes a block begun by an earlier Write (C46_shavite_violated: for New224/New256 no function H fits). Proved: for all histories in which no Write completes a block begun earlier (in particular one Write of any message below 2^64 bytes), all four objects meet the contract with the independent SHAvite-3 specification."
  },
  {
   "property": "C47",
   "status": "partial",
   "theorems": [
    "Verif.Props.C47_bash_aligned_partial",
    "Verif.Props.C47_bash_short_standard",
    "Verif.Props.C47_bash_short_partial",
    "Verif.Props.C47_bash_f",
    "Verif.Props.C47_bash_violated",
    "Verif.Props.C47_bash_oneshot_violated",
    "Verif.Props.C47_bash_negative_violated"
   ],
   "note": "The code violates the property: Write copies past the rate into the 192-byte buffer and XORs all of it, so the digest depends on how the message is cut (C47_bash_violated: no function H fits), a 65-byte message under New512 gets neither the standard digest nor the XOR-sponge digest, and negative sizes are accepted and make Sum panic. Proved: bash-f is exact, histories that never write past the block being filled meet the XOR-sponge contract, and messages shorter than a block get the standard digest."
  },
  {
   "property": "C48",
   "status": "partial",
   "theorems": [
    "Verif.Props.C48_cubehash_contract_partial",
    "Verif.Props.C48_cubehash_roundtrip",
    "Verif.Props.C48_cubehash_load",
    "Verif.Props.C48_cubehash_small_block_collide",
    "Verif.Props.C48_cubehash_hs512x_violated"
   ],
   "note": "every round count, block size divisible by 4 up to 128 bytes, output size divisible by 32 up to 1024 bits: full contract without length bound, and serialisation round trip from every reachable state into every reachable receiver. Refuted for NewHS512x (block size 1): the digest depends only on the message length, all messages of equal length collide."
  },
  {
   "property": "C49",
   "status": "proved",
   "theorems": [
    "Verif.Props.C49_belt_contract"
   ],
   "note": "full contract against belt-hash, every history, no length bound"
  },
  {
   "property": "C50",
   "status": "partial",
   "theorems": [
    "Verif.Props.C50_panama",
    "Verif.Props.C50_radio_gatun32",
    "Verif.Props.C50_radio_gatun64",
    "Verif.Props.C50_shabal",
    "Verif.Props.C50_shabal_new",
    "Verif.Props.C50_echo",
    "Verif.Props.C50_echo_new",
    "Verif.Props.C50_echo_negative_violated",
    "Verif.Props.C50_bmw_contract",
    "Verif.Props.C50_bmw_oneshot",
    "Verif.Props.C50_luffa_contract",
    "Verif.Props.C50_luffa_oneshot",
    "Verif.Props.C50_fugue_contract",
    "Verif.Props.C50_fugue_oneshot",
    "Verif.Props.C50_hamsi_contract",
    "Verif.Props.C50_hamsi_oneshot",
    "Verif.Props.C50_simd_contract",
    "Verif.Props.C50_simd_oneshot",
    "Verif.Props.C50_simd_ntt"
   ],
   "note": "Proved for panama, radio_gatun, shabal, echo, bmw, luffa, fugue, hamsi and simd (every history, and against an independent statement of the hash function). False for echo.New with a negative size: it is accepted, and Sum of such a digest panics (proved); so partial."
  },
  {
   "property": "C51",
   "status": "partial",
   "theorems": [
    "Verif.Props.C51_hex_decode",
    "Verif.Props.C51_base64_decode",
    "Verif.Props.C51_hex_roundtrip",
    "Verif.Props.C51_base64_roundtrip",
    "Verif.Props.C51_hex_reported",
    "Verif.Props.C51_base64_reported",
    "Verif.Props.C51_error_kept_partial",
    "Verif.Props.C51_malformed_reported_partial",
    "Verif.Props.C51_error_cleared_violated",
    "Verif.Props.C51_unknown_mode_forgotten_violated",
    "Verif.Props.C51_stream",
    "Verif.Props.C51_checksum",
    "Verif.Props.C51_no_hash_panics"
   ],
   "note": "encodings, error reporting and streaming proved; errors are not sticky: refuted for every malformed text followed by a successful SumBy"
  },
  {
   "property": "C52",
   "status": "partial",
   "theorems": [
    "Verif.Props.C52_lookup_registered",
    "Verif.Props.C52_no_panic_partial",
    "Verif.Props.C52_toctou_violated",
    "Verif.Props.C52_names_violated"
   ],
   "note": "lookups return registered functions in all programs and schedules; absence of panics proved for programs without removal of looked-up names and without Names beside writers; both exclusions are refuted"
  },
  {
   "property": "C53",
   "status": "proved",
   "theorems": [
    "Verif.Props.C53_distinct",
    "Verif.Props.C53_stable",
    "Verif.Props.C53_reserved",
    "Verif.Props.C53_concurrent_duplicate"
   ],
   "note": "up to the 2^64 identifiers there are; concurrent Generate calls, outside the claim, can collide"
  },
  {
   "property": "C54",
   "status": "partial",
   "theorems": [
    "Verif.Props.C54_deepcopy_partial",
    "Verif.Props.C54_disjoint_partial",
    "Verif.Props.C54_array_violated",
    "Verif.Props.C54_keys_violated",
    "Verif.Props.C54_cycle_violated"
   ],
   "note": "proved for all finite values whose arrays hold no references and whose map keys are exported; the rest is refuted"
  },
  {
   "property": "C55",
   "status": "proved",
   "theorems": [
    "Verif.Props.C55_haval_contract",
    "Verif.Props.C55_haval_rejects",
    "Verif.Props.C55_haval_rounds",
    "Verif.Props.C55_haval_size"
   ],
   "note": "The whole package: all fifteen variants against an independent HAVAL specification. Also proved: output lengths that are not multiples of 32 (e.g. 130) are silently rounded down."
  },
  {
   "property": "C56",
   "status": "partial",
   "theorems": [
    "Verif.Props.C56_fsb_contract_partial",
    "Verif.Props.C56_fsb_new",
    "Verif.Props.C56_fsb_in_range",
    "Verif.Props.C56_fsb_write_violated"
   ],
   "note": "All six sizes against an independent matrix specification (quasi-cyclic columns, Whirlpool at the end), with the bytes of Pi as a parameter, for every history whose single writes are at most 2^29-256 bytes; a write of a multiple of 2^29 bytes is silently dropped (violation)."
  },
  {
   "property": "C57",
   "status": "partial",
   "theorems": [
    "Verif.Props.C57_ascon_release_violated",
    "Verif.Props.C57_ascon_release_example",
    "Verif.Props.C57_ascon_short_partial"
   ],
   "note": "refuted for every forgery of at least 16 bytes; holds for shorter strings"
  },
  {
   "property": "C58",
   "status": "partial",
   "theorems": [
    "Verif.Props.C58_ascon_inplace_partial",
    "Verif.Props.C58_ascon_inplace_violated",
    "Verif.Props.C58_ascon_open_inplace_violated"
   ],
   "note": "holds iff the capacity has no room for the tag; otherwise refuted"
  },
  {
   "property": "C59",
   "status": "proved",
   "theorems": [
    "Verif.Props.C59_read",
    "Verif.Props.C59_stream",
    "Verif.Props.C59_roundtrip"
   ],
   "note": "messages and keys below 2^64 bytes"
  },
  {
   "property": "C60",
   "status": "proved",
   "theorems": [
    "Verif.Props.C39_skein512",
    "Verif.Props.C39_skein512_nomsg"
   ],
   "note": "messages and keys below 2^64 bytes; an empty non-nil key is a key here (the stage is run on it)"
  },
  {
   "property": "C61",
   "status": "proved",
   "theorems": [
    "Verif.Props.C39_skein_oneshot"
   ],
   "note": "messages and keys below 2^64 bytes"
  },
  {
   "property": "C62",
   "status": "proved",
   "theorems": [
    "Verif.Props.C62_belt_encrypt",
    "Verif.Props.C62_belt_decrypt",
    "Verif.Props.C62_belt_injective"
   ],
   "note": "all keys and blocks"
  },
  {
   "property": "C63",
   "status": "partial",
   "theorems": [
    "Verif.Props.C63_lsh_oneshot_partial",
    "Verif.Props.C63_lsh512_truncates",
    "Verif.Props.C63_lsh512_oneshot_violated"
   ],
   "note": "lsh256.Sum256/Sum224 and lsh512.Sum are right for every message; lsh512.Sum384/Sum256/Sum224 call New() and return truncated LSH-512-512 digests (violation proved)."
  },
  {
   "property": "C64",
   "status": "proved",
   "theorems": [
    "Verif.Props.C64_haraka",
    "Verif.Props.C64_haraka_length"
   ],
   "note": "The portable code; the AES-NI assembly is not modelled."
  },
  {
   "property": "C65",
   "status": "proved",
   "theorems": [
    "Verif.Props.C09_blake256_refines",
    "Verif.Props.C09_blake224_refines",
    "Verif.Props.C10_blake512_refines",
    "Verif.Props.C10_blake384_refines"
   ],
   "note": "Salted objects are in C09 and C10."
  },
  {
   "property": "C66",
   "status": "proved",
   "theorems": [
    "Verif.Props.C13_murmur32_refines",
    "Verif.Props.C13_murmur128_refines",
    "Verif.Props.C13_sum32WithSeed",
    "Verif.Props.C13_sum64WithSeed",
    "Verif.Props.C13_sum128WithSeed"
   ],
   "note": "The New64 object is in C13."
  },
  {
   "property": "C67",
   "status": "proved",
   "theorems": [
    "Verif.Props.C18_cmac_new",
    "Verif.Props.C18_cmac_contract",
    "Verif.Props.C18_cmac_verify"
   ],
   "note": "The theorems state the property."
  },
  {
   "property": "C68",
   "status": "proved",
   "theorems": [
    "Verif.Props.C20_composition_exact",
    "Verif.Props.C20_composition_oneshot"
   ],
   "note": "The specification records the accumulating second Sum; that this is not the composition is C20_composition_violated under C20."
  },
  {
   "property": "C69",
   "status": "proved",
   "theorems": [
    "Verif.Props.C28_k12_noReset",
    "Verif.Props.C28_k12_stream"
   ],
   "note": "The theorems state the property."
  },
  {
   "property": "C70",
   "status": "proved",
   "theorems": [
    "Verif.Props.C27_blake3_stream",
    "Verif.Props.C27_blake3_size_prefix"
   ],
   "note": "The theorems state the property."
  },
  {
   "property": "C71",
   "status": "proved",
   "theorems": [
    "Verif.Props.C30_md6_function"
   ],
   "note": "That this function is not MD6 for L=64 trees is under C30."
  },
  {
   "property": "C72",
   "status": "proved",
   "theorems": [
    "Verif.Props.C33_gost34112012_new",
    "Verif.Props.C33_gost34112012"
   ],
   "note": "The theorems state the property."
  },
  {
   "property": "C73",
   "status": "proved",
   "theorems": [
    "Verif.Props.C34_roundTrip",
    "Verif.Props.C34_accepts"
   ],
   "note": "Accepted input that later panics is under C34."
  },
  {
   "property": "C74",
   "status": "proved",
   "theorems": [
    "Verif.Props.C33_streebog_chunks"
   ],
   "note": "The theorems state the property."
  },
  {
   "property": "C75",
   "status": "proved",
   "theorems": [
    "Verif.Props.C36_esp"
   ],
   "note": "The theorems state the property."
  },
  {
   "property": "C76",
   "status": "proved",
   "theorems": [
    "Verif.Props.C38_jh2_contract"
   ],
   "note": "The theorems state the property."
  },
  {
   "property": "C77",
   "status": "proved",
   "theorems": [
    "Verif.Props.C39_skeins_streaming"
   ],
   "note": "The theorems state the property."
  },
  {
   "property": "C78",
   "status": "proved",
   "theorems": [
    "Verif.Props.C45_kupyna",
    "Verif.Props.C45_kupyna_sum",
    "Verif.Props.C45_kupyna_enc"
   ],
   "note": "The theorems state the property."
  },
  {
   "property": "C79",
   "status": "proved",
   "theorems": [
    "Verif.Props.C45_kmac_new"
   ],
   "note": "The theorems state the property."
  },
  {
   "property": "C80",
   "status": "proved",
   "theorems": [
    "Verif.Props.C46_shavite_oneshot",
    "Verif.Props.C46_shavite_aes"
   ],
   "note": "The theorems state the property."
  },
  {
   "property": "C81",
   "status": "proved",
   "theorems": [
    "Verif.Props.C47_bash_f"
   ],
   "note": "The theorems state the property."
  },
  {
   "property": "C82",
   "status": "proved",
   "theorems": [
    "Verif.Props.C48_cubehash_roundtrip"
   ],
   "note": "The theorems state the property."
  },
  {
   "property": "C83",
   "status": "proved",
   "theorems": [
    "Verif.Props.C50_panama"
   ],
   "note": "The theorems state the property."
  },
  {
   "property": "C84",
   "status": "proved",
   "theorems": [
    "Verif.Props.C50_radio_gatun32",
    "Verif.Props.C50_radio_gatun64"
   ],
   "note": "The theorems state the property."
  },
  {
   "property": "C85",
   "status": "proved",
   "theorems": [
    "Verif.Props.C50_shabal_new",
    "Verif.Props.C50_shabal"
   ],
   "note": "The theorems state the property."
  },
  {
   "property": "C86",
   "status": "proved",
   "theorems": [
    "Verif.Props.C50_echo",
    "Verif.Props.C50_echo_new"
   ],
   "note": "C50_echo_new says for which sizes New succeeds; negative sizes are under C50."
  },
  {
   "property": "C87",
   "status": "proved",
   "theorems": [
    "Verif.Props.C50_bmw_contract",
    "Verif.Props.C50_bmw_oneshot"
   ],
   "note": "The theorems state the property."
  },
  {
   "property": "C88",
   "status": "proved",
   "theorems": [
    "Verif.Props.C50_luffa_contract",
    "Verif.Props.C50_luffa_oneshot"
   ],
   "note": "The theorems state the property."
  },
  {
   "property": "C89",
   "status": "proved",
   "theorems": [
    "Verif.Props.C50_fugue_contract",
    "Verif.Props.C50_fugue_oneshot"
   ],
   "note": "The theorems state the property."
  },
  {
   "property": "C90",
   "status": "proved",
   "theorems": [
    "Verif.Props.C50_hamsi_contract",
    "Verif.Props.C50_hamsi_oneshot"
   ],
   "note": "The theorems state the property."
  },
  {
   "property": "C91",
   "status": "proved",
   "theorems": [
    "Verif.Props.C50_simd_contract",
    "Verif.Props.C50_simd_oneshot",
    "Verif.Props.C50_simd_ntt"
   ],
   "note": "The theorems state the property."
  },
  {
   "property": "C92",
   "status": "proved",
   "theorems": [
    "Verif.Props.C51_hex_roundtrip",
    "Verif.Props.C51_base64_roundtrip",
    "Verif.Props.C51_hex_reported",
    "Verif.Props.C51_base64_reported",
    "Verif.Props.C51_hex_decode",
    "Verif.Props.C51_base64_decode"
   ],
   "note": "A later call may clear the error: see C51."
  },
  {
   "property": "C93",
   "status": "proved",
   "theorems": [
    "Verif.Props.C51_stream",
    "Verif.Props.C51_checksum",
    "Verif.Props.C51_no_hash_panics"
   ],
   "note": "The theorems state the property."
  },
  {
   "property": "C94",
   "status": "proved",
   "theorems": [
    "Verif.Props.C52_lookup_registered"
   ],
   "note": "The theorems state the property."
  },
  {
   "property": "C95",
   "status": "proved",
   "theorems": [
    "Verif.Props.C23_reader_independent",
    "Verif.Props.C23_cut_unique",
    "Verif.Props.C23_chunks_partition"
   ],
   "note": "The theorems state the property."
  },
  {
   "property": "C96",
   "status": "proved",
   "theorems": [
    "Verif.Props.C43_makwa_hash_check",
    "Verif.Props.C42_makwa_b64"
   ],
   "note": "The theorems state the property."
  },
  {
   "property": "C97",
   "status": "proved",
   "theorems": [
    "Verif.Props.C56_fsb_new",
    "Verif.Props.C56_fsb_in_range"
   ],
   "note": "The theorems state the property."
  },
  {
   "property": "C98",
   "status": "proved",
   "theorems": [
    "Verif.Props.C16_chaskey_oneshot",
    "Verif.Props.C29_esch_oneshot"
   ],
   "note": "The theorems state the property."
  },
  {
   "property": "C99",
   "status": "partial",
   "theorems": [
    "Verif.Props.xxh3_write_violated",
    "Verif.Props.xxh3_short_violated",
    "Verif.Props.xxh3_seed_partial",
    "Verif.Props.xxh3_secret_partial",
    "Verif.Props.xxh3_exact_partial"
   ],
   "note": "False of the code: the second of two Write calls of 256 bytes panics (negative slice index), and messages of 0 to 3 bytes end with the XXH3 instead of the XXH64 finaliser. Proved: the official value from 4 bytes on in all histories without a panicking Write, and the exact (wrong) function for shorter ones."
  }
 ]
}