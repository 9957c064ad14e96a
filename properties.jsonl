{"id": "C01", "title": "Default padding round-trips", "statement": "For DefaultPadding built from any cipher: padding(buf) always makes the length a positive multiple of the cipher's block size (strictly longer than before), keeps the original bytes as a prefix, and unpadding(padding(buf)) restores exactly the original buffer and succeeds.", "quantifier": "every block size >= 1 (and the stream-cipher case, size 1) and every byte buffer, of any length", "why_tests_cant": "tests check a handful of lengths; the boundary cases are len = k*bs-1, k*bs, and they must hold for all k, all block sizes and all contents", "anchors": ["src/cipher_mode/padding.rs: DefaultPadding::{padding,unpadding}"]}
{"id": "C02", "title": "Unpadding rejects malformed padding", "statement": "unpadding succeeds only on buffers of the form m || 0x80 || 0x00* (returning m) and reports UnpaddingNotMatch, leaving the buffer unchanged, otherwise.", "quantifier": "every byte buffer", "why_tests_cant": "the set of malformed buffers is unbounded; a test can only try some of them", "anchors": ["src/cipher_mode/padding.rs: DefaultPadding::unpadding"]}
{"id": "C03", "title": "Counter enumerates consecutive big-endian values", "statement": "DefaultCounter::new(initial, bits) succeeds iff initial fits into ceil(bits/8) bytes; the i-th call of next() returns the ceil(bits/8)-byte big-endian encoding of initial + i (mod 256^len); hence values do not repeat within 256^len calls; reset (and clone) restart at the initial value.", "quantifier": "every initial value, every width, every number of next()/reset() calls", "why_tests_cant": "carry propagation and wrap-around occur only at 256^k-th calls, unreachable by tests", "anchors": ["src/cipher_mode/counter.rs: DefaultCounter"]}
{"id": "C04", "title": "ECB one-shot decrypt inverts encrypt", "statement": "For every lawful block cipher, ECB::decrypt(ECB::encrypt(m)) = m with DefaultPadding for every m, and with EmptyPadding for every m of whole blocks; ECB::decrypt rejects with InvalidParameter every ciphertext whose length is not a multiple of the block size.", "quantifier": "every block cipher that is a permutation on its blocks, every message", "why_tests_cant": "universal over keys, messages and lengths", "anchors": ["src/cipher_mode/ecb.rs: ECB::{encrypt,decrypt}"]}
{"id": "C05", "title": "ECB streaming encryption equals one-shot encryption", "statement": "Writing a message through ECBEncrypt in any sequence of write() calls (empty chunks included), drawing off output at any points, then finish(), yields in total exactly the one-shot ECB::encrypt of the concatenation, and leaves the stream as if freshly created.", "quantifier": "every message, every way of cutting it into chunks, every schedule of drawing output off", "why_tests_cant": "number of chunkings is exponential in message length", "anchors": ["src/cipher_mode/ecb.rs: ECBEncrypt::{write,finish}", "src/cipher_mode/pond.rs: Pond::draw_off"]}
{"id": "C06", "title": "ECB streaming decryption equals one-shot decryption", "statement": "Feeding ciphertext = ECB::encrypt(m) through ECBDecrypt in any chunking and finishing yields m.", "quantifier": "every message (DefaultPadding), every chunking of the ciphertext", "why_tests_cant": "failure depends on |m| mod block size and on chunk boundaries", "anchors": ["src/cipher_mode/ecb.rs: ECBDecrypt::{write,finish}"]}
{"id": "C07", "title": "CBC one-shot decrypt inverts encrypt", "statement": "For every lawful block cipher and IV, CBC::decrypt(CBC::encrypt(m)) = m with DefaultPadding for every message and with EmptyPadding for whole-block messages.", "quantifier": "every cipher, IV and message", "why_tests_cant": "universal over keys, IVs and messages", "anchors": ["src/cipher_mode/cbc.rs: CBC::{encrypt,decrypt}"]}
{"id": "C08", "title": "CBC streaming encryption is textbook CBC of the padded message for any chunking", "statement": "CBCEncrypt written in any chunking and finished yields C_i = E(P_i xor C_{i-1}), C_0 = IV over the padded message, independent of chunking; and one-shot CBC::decrypt of it returns the message.", "quantifier": "every cipher, IV, message and chunking", "why_tests_cant": "chunkings are unbounded; the error appears only for particular residues of the length", "anchors": ["src/cipher_mode/cbc.rs: CBCEncrypt::{write,finish}"]}
{"id": "C09", "title": "CBC streaming decryption inverts CBC encryption for any chunking", "statement": "Feeding a CBC ciphertext of m in any chunking into CBCDecrypt and finishing yields m.", "quantifier": "every cipher, IV, message and chunking of the ciphertext", "why_tests_cant": "depends on residues and chunk boundaries", "anchors": ["src/cipher_mode/cbc.rs: CBCDecrypt::{write,finish}"]}
{"id": "C10", "title": "CFB decrypt inverts encrypt for every segment size", "statement": "For every lawful block cipher, IV and segment size s accepted by CFB::new, CFB::decrypt(CFB::encrypt(m)) = m with DefaultPadding (any m) and with EmptyPadding for messages that are whole segments; the ciphertext is the textbook CFB-s ciphertext of the padded message.", "quantifier": "every cipher, IV, s in 8..8*bs step 8 accepted by new, every message", "why_tests_cant": "universal over messages and s", "anchors": ["src/cipher_mode/cfb.rs: CFB::{new,encrypt,decrypt}"]}
{"id": "C11", "title": "CFB never silently drops plaintext and never panics on malformed ciphertext", "statement": "CFB encryption that returns Ok has encrypted every input byte, and CFB decryption (one-shot or streaming) of any ciphertext returns Ok or Err but does not panic.", "quantifier": "every message length, every ciphertext length and chunking", "why_tests_cant": "must hold for all lengths", "anchors": ["src/cipher_mode/cfb.rs: CFB::encrypt, CFBDecrypt::finish"]}
{"id": "C12", "title": "CFB streaming equals one-shot for any chunking", "statement": "CFBEncrypt (resp. CFBDecrypt with output collected at finish) fed in any chunking gives exactly the one-shot result.", "quantifier": "every message and chunking", "why_tests_cant": "exponentially many chunkings", "anchors": ["src/cipher_mode/cfb.rs: CFBEncrypt, CFBDecrypt"]}
{"id": "C13", "title": "OFB is an involution and streaming equals one-shot", "statement": "OFB::decrypt(OFB::encrypt(m)) = m with |ciphertext| = |m| for every message; OFBEncrypt/OFBDecrypt under any chunking and draw-off schedule produce the one-shot output, and after finish the stream is ready for a new message from the same IV.", "quantifier": "every cipher, IV, message and chunking", "why_tests_cant": "unbounded lengths and chunkings", "anchors": ["src/cipher_mode/ofb.rs: OFB, OFBEncrypt, OFBDecrypt"]}
{"id": "C14", "title": "CTR decryption inverts encryption; streaming equals one-shot from a reset counter", "statement": "With equal counter state CTR::decrypt(CTR::encrypt(m)) = m and length is preserved; CTREncrypt/CTRDecrypt in any chunking produce the one-shot output of a freshly reset counter.", "quantifier": "every cipher, counter, message and chunking", "why_tests_cant": "unbounded lengths and chunkings", "anchors": ["src/cipher_mode/ctr.rs"]}
{"id": "C15", "title": "CTR never reuses a keystream block", "statement": "Encrypting with CTR and DefaultCounter accepted by CTR::new, no two blocks among the first 256^(block size) use the same cipher input.", "quantifier": "every counter accepted by CTR::new and every pair of block indices", "why_tests_cant": "repetition depends on counter width and only shows for long histories", "anchors": ["src/cipher_mode/ctr.rs: CTR::{new,encrypt_inner}", "src/cipher_mode/counter.rs"]}
{"id": "C16", "title": "DES decryption inverts encryption", "statement": "For every 64-bit key and every 8-byte block DES::decrypt(DES::encrypt(b)) = b and vice versa; other block lengths give InvalidParameter.", "quantifier": "all 2^64 keys and 2^64 blocks, all wrong lengths", "why_tests_cant": "domain of 2^128 pairs", "anchors": ["src/des/des.rs", "src/des/const_tables.rs"]}
{"id": "C17", "title": "DES conforms to the FIPS 46-3 bit-level definition and has its complementation property", "statement": "The table/bit-twiddling DES implementation equals the FIPS 46-3 description (bit permutations numbered from the most significant bit, E, S-boxes, P, PC-1/PC-2 key schedule) for every key and block, and DES(~k, ~m) = ~DES(k, m).", "quantifier": "all keys and blocks", "why_tests_cant": "2^128 pairs", "anchors": ["src/des/des.rs: DES::{f_sbox,cipher,permutate...}"]}
{"id": "C18", "title": "TDES decryption inverts encryption; equal keys degrade to DES", "statement": "For every key triple TDES::decrypt(TDES::encrypt(b)) = b; TDES with k1=k2=k3=k equals DES with k; wrong block lengths give InvalidParameter.", "quantifier": "all key triples, all blocks", "why_tests_cant": "2^256 pairs", "anchors": ["src/des/tdes.rs"]}
{"id": "C19", "title": "SM4 decryption inverts encryption", "statement": "For every 16-byte key and block SM4::decrypt(SM4::encrypt(b)) = b and vice versa; wrong key or block lengths are rejected with InvalidParameter.", "quantifier": "all 2^128 keys, 2^128 blocks, all wrong lengths", "why_tests_cant": "domain size", "anchors": ["src/sm4/sm4.rs", "src/sm4/sm4_const_tables.rs"]}
{"id": "C20", "title": "AES decryption inverts encryption for all key sizes", "statement": "For every 16/24/32-byte key and every 16-byte block AES::decrypt(AES::encrypt(b)) = b and vice versa; other key/block lengths give InvalidParameter.", "quantifier": "all keys and blocks", "why_tests_cant": "domain size", "anchors": ["src/aes/aes.rs", "src/aes/aes_generic.rs", "src/aes/const_tables.rs"]}
{"id": "C21", "title": "AES conforms to FIPS-197 for all inputs", "statement": "The T-table implementation equals the FIPS-197 cipher (SubBytes/ShiftRows/MixColumns/AddRoundKey over GF(2^8), KeyExpansion) for every key and block.", "quantifier": "all keys of 3 sizes and all blocks", "why_tests_cant": "domain size", "anchors": ["src/aes/aes_generic.rs", "src/aes/const_tables.rs"]}
{"id": "C22", "title": "AES-NI backend equals the generic backend", "statement": "The AES-NI (x86) code path produces the same ciphertext and plaintext as the table-driven path for every key and block, given the documented semantics of the intrinsics.", "quantifier": "all keys and blocks", "why_tests_cant": "domain size; also both backends are never compiled together", "anchors": ["src/aes/aes_amd64.rs", "src/aes/aes_generic.rs"]}
{"id": "C23", "title": "MD5 streaming computes MD5 for every chunking", "statement": "For every message cut into any sequence of write() calls, checksum yields the RFC 1321 MD5 of the concatenation.", "quantifier": "every message (< 2^61 bytes) and chunking", "why_tests_cant": "exponentially many chunkings, buffer boundary cases", "anchors": ["src/md5/md5.rs", "src/md5/md5_generic.rs"]}
{"id": "C24", "title": "SHA-1 streaming computes SHA-1 for every chunking", "statement": "For every message and chunking the digest is the FIPS 180-4 SHA-1 of the concatenation.", "quantifier": "every message (< 2^61 bytes) and chunking", "why_tests_cant": "exponentially many chunkings", "anchors": ["src/sha/sha1.rs", "src/sha/sha1_generic.rs"]}
{"id": "C25", "title": "SHA-256/SHA-224 streaming computes the FIPS 180-4 digest for every chunking", "statement": "For every message and chunking, SHA256 and SHA224 return the FIPS 180-4 digest of the concatenation (SHA224 being the 28-byte truncation with its own IV).", "quantifier": "every message (< 2^61 bytes) and chunking", "why_tests_cant": "exponentially many chunkings", "anchors": ["src/sha/sha256.rs", "src/sha/sha256_generic.rs"]}
{"id": "C26", "title": "SHA-512/SHA-384/SHA-512-256/SHA-512-224 streaming computes the FIPS 180-4 digest", "statement": "For every message and chunking SHA512, SHA384, SHA512T256, SHA512T224 return the FIPS 180-4 digest.", "quantifier": "every message and chunking", "why_tests_cant": "exponentially many chunkings", "anchors": ["src/sha/sha512.rs", "src/sha/sha512_generic.rs"]}
{"id": "C27", "title": "SHA-512/t with generated IV conforms to FIPS 180-4", "statement": "SHA512T::new(t) computes SHA-512/t for every valid t: in particular SHA512T::new(256) agrees with SHA512T256 and SHA512T::new(224) with SHA512T224, and the last partial byte keeps its leftmost t mod 8 bits.", "quantifier": "every t and every message", "why_tests_cant": "all t, all messages", "anchors": ["src/sha/sha512.rs: SHA512T"]}
{"id": "C28", "title": "SM3 streaming computes SM3 for every chunking", "statement": "For every message and chunking the digest is the GM/T 0004 SM3 of the concatenation.", "quantifier": "every message and chunking", "why_tests_cant": "exponentially many chunkings", "anchors": ["src/sm3/sm3.rs"]}
{"id": "C29", "title": "checksum is idempotent and reset restores a fresh hash", "statement": "For every hash and history, calling checksum repeatedly without new writes returns the same digest; after reset the object behaves like a new one.", "quantifier": "every history of write/checksum/reset calls", "why_tests_cant": "all histories", "anchors": ["src/cipher.rs: Digest", "src/md5/md5.rs", "src/sha/*.rs", "src/sm3/sm3.rs", "src/sha3/*.rs"]}
{"id": "C30", "title": "Writing after checksum hashes a well-defined message", "statement": "After checksum, further write(x); checksum yields the digest either of x alone or of the whole concatenation, consistently.", "quantifier": "every pair of messages", "why_tests_cant": "histories", "anchors": ["src/sha/sha256.rs", "src/sha/sha512.rs", "src/md5/md5.rs", "src/sm3/sm3.rs"]}
{"id": "C31", "title": "HMAC equals RFC 2104 for every key, message and chunking", "statement": "HMAC over any conforming Digest returns H((K0^opad)||H((K0^ipad)||text)) with K0 the padded or hashed key, for every key length and chunking; checksum is repeatable; a write after checksum starts a new message; set_key/reset restart.", "quantifier": "every key, message, chunking and call history", "why_tests_cant": "unbounded keys/messages/histories", "anchors": ["src/hmac/hmac.rs"]}
{"id": "C32", "title": "CMAC equals SP 800-38B for every message and chunking", "statement": "CMAC over any lawful block cipher with a supported block size returns the SP 800-38B tag of the concatenated message for every chunking; repeated checksum is stable; a write after checksum starts a new message.", "quantifier": "every cipher, key, message, chunking and history", "why_tests_cant": "unbounded", "anchors": ["src/cmac/cmac.rs", "src/cmac/const_tables.rs"]}
{"id": "C33", "title": "SHA-3 streaming equals the sponge of the concatenation", "statement": "For every message and chunking SHA3-224/256/384/512 return Keccak[c](M||01) truncated to d bits per FIPS 202 with pad10*1, independent of chunking, and may be reused after checksum.", "quantifier": "every message, chunking and history", "why_tests_cant": "unbounded", "anchors": ["src/sha3/sha3.rs", "src/keccak/keccak.rs"]}
{"id": "C34", "title": "SHAKE output is extendable", "statement": "The SHAKE output of length d1 is a prefix of the output of length d2 >= d1 for the same message.", "quantifier": "every message, every pair of output lengths", "why_tests_cant": "unbounded lengths crossing rate boundaries", "anchors": ["src/sha3/shake.rs", "src/keccak/keccak.rs: KeccakSponge::sponge_buf"]}
{"id": "C35", "title": "Keccak padding is injective and rate aligned", "statement": "The padded bit string has length a positive multiple of the rate and two different messages never have the same padded string.", "quantifier": "every rate >= 1 accepted, all pairs of bit strings", "why_tests_cant": "unbounded", "anchors": ["src/keccak/keccak.rs: KeccakSponge::pad"]}
{"id": "C36", "title": "KeccakSponge::new only accepts 0 < rate < width", "statement": "Construction succeeds only for rates strictly between 0 and the permutation width, so that later hashing cannot panic or ignore message bits.", "quantifier": "every rate and width", "why_tests_cant": "all rates", "anchors": ["src/keccak/keccak.rs: KeccakSponge::new"]}
{"id": "C37", "title": "Keccak-p step mappings and round constants follow FIPS 202 for every width", "statement": "theta, rho, pi, chi, iota computed on the implementation's state equal the FIPS 202 formulas for every lane size and state, and iota's round constant is rc(j+7 ir) for every round index.", "quantifier": "all lane sizes, states, round indices", "why_tests_cant": "states of 1600 bits", "anchors": ["src/keccak/keccak.rs"]}
{"id": "C38", "title": "ZUC stream encryption is chunk independent and invertible", "statement": "Encrypting a message by any sequence of ZUCCipher::encrypt calls equals xor with the ZUC keystream from the beginning; decrypting with an identically initialised cipher restores the message; Ok(n) reports the number of output bytes.", "quantifier": "every key, count/bearer/direction, message and chunking", "why_tests_cant": "unbounded chunkings with residues mod 4", "anchors": ["src/zuc/zuc_cipher.rs"]}
{"id": "C39", "title": "ZUC register invariants and modular addition", "statement": "add used in the LFSR is addition modulo 2^31-1 without overflow, and after key loading every LFSR cell stays in 1..2^31-1 for every number of steps.", "quantifier": "all keys, IVs and numbers of steps", "why_tests_cant": "unbounded steps", "anchors": ["src/zuc/zuc_core.rs"]}
{"id": "C40", "title": "ZUC MAC equals 128-EIA3", "statement": "ZUCMac over any message written in any chunking returns the 128-EIA3 tag; checksum is repeatable.", "quantifier": "all keys, messages, chunkings", "why_tests_cant": "unbounded", "anchors": ["src/zuc/zuc_mac.rs"]}
{"id": "C41", "title": "RSA decryption inverts encryption for every valid key", "statement": "For every key of n >= 2 distinct primes with e*d = 1 mod (p-1) for all of them, PrivateKey::decrypt(PublicKey::encrypt(m)) = m for all 0 <= m < n, through the plain and CRT (multi-prime) paths, with and without blinding, whatever random stream is used.", "quantifier": "all valid keys, all m < n, all random streams", "why_tests_cant": "universal over keys and messages", "anchors": ["src/rsa/rsa.rs: PublicKey::encrypt, PrivateKey::decrypt, PrecomputedValues::new"]}
{"id": "C42", "title": "RSA generated keys consist of pairwise distinct primes", "statement": "generate_multi_prime_key returns keys whose primes are pairwise distinct.", "quantifier": "all prime sequences delivered by the prime generator", "why_tests_cant": "random choices", "anchors": ["src/rsa/rsa.rs: generate_multi_prime_key"]}
{"id": "C43", "title": "RSAES-PKCS1-v1_5 decrypt inverts encrypt", "statement": "For every valid key with k > 11 and every message of length <= k-11, decrypt(encrypt(m)) = m for every random stream; longer messages are rejected.", "quantifier": "all keys, messages and random streams", "why_tests_cant": "universal", "anchors": ["src/rsa/pkcs1.rs: encrypt, decrypt"]}
{"id": "C44", "title": "RSAES-OAEP decrypt inverts encrypt", "statement": "For every valid key, label, hash and message of length <= k-2h-2, decrypt(encrypt(m)) = m for every random stream; longer messages are rejected.", "quantifier": "all keys, labels, messages and random streams", "why_tests_cant": "universal", "anchors": ["src/rsa/oaep.rs"]}
{"id": "C45", "title": "RSAES-OAEP rejects malformed encodings", "statement": "decrypt succeeds only if the recovered data block is lHash || 0* || 0x01 || M.", "quantifier": "all ciphertexts", "why_tests_cant": "universal", "anchors": ["src/rsa/oaep.rs: decrypt_inner"]}
{"id": "C46", "title": "RSASSA-PKCS1-v1_5 verify accepts exactly the genuine encoding", "statement": "verify(sign(m), m) succeeds; and verify accepts a signature iff its length is k and its public-key image is EMSA-PKCS1-v1_5 of the message.", "quantifier": "all keys, messages and candidate signatures", "why_tests_cant": "universal", "anchors": ["src/rsa/pkcs1.rs: sign, verify"]}
{"id": "C47", "title": "Unsupported hashes are rejected at construction", "statement": "PKCS1::new with a hash that has no DigestInfo prefix returns NotSupportUsage, so sign/verify never panic.", "quantifier": "all digest types", "why_tests_cant": "all types", "anchors": ["src/rsa/pkcs1.rs: check_hash_is_support, pkcs1_hash_prefix"]}
{"id": "C48", "title": "RSASSA-PSS verify accepts every genuine signature", "statement": "For every valid key, salt length, message and random salt, verify(sign(m), m) succeeds.", "quantifier": "all modulus sizes, salt lengths, messages, salts, build profiles", "why_tests_cant": "universal; failure depends on modulus bit length mod 8", "anchors": ["src/rsa/pss.rs"]}
{"id": "C49", "title": "DSA verify accepts every genuine signature", "statement": "For every valid domain parameters, key, hash and nonce stream, verify(sign(m), m) succeeds.", "quantifier": "all parameters, keys, messages, nonces", "why_tests_cant": "universal; failure depends on the digest length relative to q", "anchors": ["src/dsa/dsa.rs: sign_inner, verify_inner"]}
{"id": "C50", "title": "DSA domain parameters are consistent", "statement": "Generated (p,q,g) satisfy q | p-1, g^q = 1 mod p, 1 < g < p; verify rejects r or s outside 1..q-1.", "quantifier": "all random streams", "why_tests_cant": "universal", "anchors": ["src/dsa/dsa.rs: generate_parameters_inner, verify_inner"]}
{"id": "C51", "title": "(EC)DSA signature container round-trips", "statement": "SignatureContent::form_bigint/set followed by to_bigint returns (r, s) unchanged.", "quantifier": "all r, s", "why_tests_cant": "universal", "anchors": ["src/dsa/signature.rs"]}
{"id": "C52", "title": "Generic elliptic-curve arithmetic is the group law", "statement": "For curves y^2 = x^3-3x+b over a prime field, CurveParams::add/double/scalar on on-curve points (with (0,0) as infinity) return on-curve points equal to the chord-and-tangent group operation; scalar(P,k) = kP for every k.", "quantifier": "all prime fields, curves, points, scalars", "why_tests_cant": "universal; exceptional cases (P=Q, P=-Q, infinity) are hit with negligible probability in tests", "anchors": ["src/elliptic/elliptic.rs"]}
{"id": "C53", "title": "ECDSA verify accepts every genuine signature", "statement": "For every curve with prime base point order, every key, message, hash and random stream, verify(sign(m), m) succeeds.", "quantifier": "all keys, messages, nonces", "why_tests_cant": "universal", "anchors": ["src/ecdsa/ecdsa.rs"]}
{"id": "C54", "title": "ECDSA secrets and nonces are in 1..n-1", "statement": "Every secret and nonce is in 1..n-1: rand_field_element maps every byte string to 1..n-1, and generate_key and auto_generate_key return 1 <= d < n with the matching public point.", "quantifier": "all random streams", "why_tests_cant": "universal", "anchors": ["src/ecdsa/ecdsa.rs: rand_field_element_inner", "src/elliptic/elliptic.rs: generate_key"]}
{"id": "C55", "title": "Named curve constants are sound", "statement": "The base points of P-224, P-256, P-384, P-521 lie on their curves and have the stated prime order n, the curves have exactly n points (cofactor 1), so that n times any point is infinity, and the metadata (bit size, name) match the curve.", "quantifier": "the four curves", "why_tests_cant": "order statement ranges over the group; metadata is not covered by tests", "anchors": ["src/elliptic/elliptic.rs: p224,p256,p384,p521"]}
{"id": "C56", "title": "P-224 limb arithmetic is field arithmetic", "statement": "Multiplication, squaring, addition, subtraction, reduction, contraction and inversion on 28-bit limbs compute the field operation mod p for every input within the documented bounds, without overflow, and keep the documented output bounds.", "quantifier": "all limb vectors within bounds", "why_tests_cant": "rare carries occur with probability ~2^-28", "anchors": ["src/elliptic/p224.rs"]}
{"id": "C57", "title": "CurveP224 agrees with the generic implementation", "statement": "CurveP224::{is_on_curve,add,double,scalar,scalar_base_point} equal the CurveParams::p224() results.", "quantifier": "all points and scalars", "why_tests_cant": "universal", "anchors": ["src/elliptic/p224.rs", "src/elliptic/elliptic.rs"]}
{"id": "C58", "title": "P-256 limb arithmetic is Montgomery field arithmetic", "statement": "The 29/28-bit limb operations of P-256 compute field operations in Montgomery form for every input within bounds and keep the documented bounds, in release and in debug builds; the point formulas on limbs compute the group operations they are meant for.", "quantifier": "all limb vectors within bounds", "why_tests_cant": "rare carries", "anchors": ["src/elliptic/p256.rs"]}
{"id": "C59", "title": "Mode constructors validate IV, segment size and counter width", "statement": "CBC/CFB/OFB::new and set_iv accept exactly IVs of the block length; CFB::new accepts exactly byte-multiple segment sizes up to the block size compatible with the padding; CTR::new accepts exactly counters at least one block wide; update_iv delivers an IV of block length or an error.", "quantifier": "all lengths and segment sizes", "why_tests_cant": "all values", "anchors": ["src/cipher_mode/cbc.rs", "src/cipher_mode/cfb.rs", "src/cipher_mode/ofb.rs", "src/cipher_mode/ctr.rs", "src/cipher_mode/initial_vec.rs"]}
{"id": "C60", "title": "Streams can be reset or reused", "statement": "After reset() at any point, or after a successful finish(), an encrypting/decrypting stream behaves like a newly created one.", "quantifier": "all histories", "why_tests_cant": "histories", "anchors": ["src/cipher_mode/*.rs: reset, finish"]}
{"id": "C61", "title": "DES ignores the parity bits of its key", "statement": "Two keys that differ only in the least significant bit of some of their bytes give the same DES cipher: encrypt and decrypt agree on every input.", "quantifier": "all pairs of keys equal up to parity bits, all inputs", "why_tests_cant": "2^64 keys times 2^8 parity patterns times 2^64 blocks", "anchors": ["src/des/des.rs: DES::new, key_schedule"]}
{"id": "C62", "title": "Keccak::permutation uses one bit order", "statement": "permutation(data) is Keccak-p[b,nr] of the bit string of data in the bit order of FIPS 202 (the order of its own output), so that outputs can be fed back and compared with other implementations.", "quantifier": "every width, round count and input", "why_tests_cant": "inputs of up to 1600 bits", "anchors": ["src/keccak/keccak.rs: Keccak::permutation, cvt_from_slice, cvt_to_slice"]}
{"id": "C63", "title": "SHAKE objects follow FIPS 202 for every history", "statement": "SHAKE128/256 (and their raw variants) return Keccak[c](M||1111, d) (M||11) for the message written and the length in force, for every history of write, checksum, reset and set_digest_len calls.", "quantifier": "every message, chunking, output length and history", "why_tests_cant": "unbounded", "anchors": ["src/sha3/shake.rs"]}
{"id": "C64", "title": "RSA decryption refuses out-of-range representatives", "statement": "PrivateKey::decrypt returns an error for every ciphertext representative c >= n, and succeeds for every c < n.", "quantifier": "all valid keys and all c", "why_tests_cant": "universal over keys and numbers", "anchors": ["src/rsa/rsa.rs: PrivateKey::decrypt"]}
{"id": "C65", "title": "RSASSA-PSS verify accepts only genuine encodings", "statement": "PSS::verify accepts a signature only if it has k bytes, is below n and its public-key image is EMSA-PSS of the message with some salt of the configured length.", "quantifier": "all keys, messages, candidate signatures and build profiles", "why_tests_cant": "universal; the masks depend on the modulus bit length", "anchors": ["src/rsa/pss.rs: emsa_pss_verify, verify_inner"]}
{"id": "C66", "title": "RSA public-key constructors accept exactly the usable numbers", "statement": "PublicKey::from_nat/from_be_bytes/from_le_bytes accept exactly the pairs with 3 <= e < n and store the numbers of the byte strings in the stated byte order; the scheme constructors (PKCS1::new and the like) accept such a key exactly when e < 2^31.", "quantifier": "all pairs of numbers and all byte strings", "why_tests_cant": "universal over numbers; boundary values", "anchors": ["src/rsa/rsa.rs: PublicKey::from_nat, from_be_bytes, from_le_bytes, is_valid"]}
{"id": "C67", "title": "ECDSA per-message secrets follow the documented derivation", "statement": "The secret of attempt i of ECDSA sign is read from the AES-256-CTR key stream under the first 32 bytes of SHA-512(d || entropy || hash) with the initial counter \"IV for ECDSA CTR\", reduced to 1..n-1; sign returns the signature of the first attempt that gives non-zero r and s, and has no other outcome as long as a secret key is present.", "quantifier": "all keys, messages, hash functions, random streams, numbers of attempts", "why_tests_cant": "retries happen with negligible probability; the derivation must hold for every input", "anchors": ["src/ecdsa/ecdsa.rs: sign_inner, rand_field_element_for_csprng", "src/ecdsa/csp_rng.rs"]}
{"id": "C68", "title": "CurveP256 scalar multiplication is the group law", "statement": "CurveP256::scalar and scalar_base_point return k times the point, with reduced coordinates, for every point of the curve (infinity included) and every k, and so agree with the generic curve, without panicking, in release and in debug builds; an ECDSA signature made with CurveP256 is accepted.", "quantifier": "all points, all scalars, all keys and messages", "why_tests_cant": "universal; the formulas used are wrong for equal points and for infinity, and only a proof shows these cases never arise", "anchors": ["src/elliptic/p256.rs: scalar, scalar_base_point", "src/ecdsa"]}
{"id": "C69", "title": "The SHA and SHA3 enumerations behave as the hash they name", "statement": "An object made by a constructor of the enumeration SHA (sha1, sha224, ..., sha512t) or SHA3 behaves, for every history of write, write_bit, checksum and reset, as the concrete hash type it names: it returns the same digests (so those of the named hash function), block size and length; SHA::sha512t gives an object exactly for t up to 512.", "quantifier": "all members, all histories of calls, all messages", "why_tests_cant": "universal over histories; one swapped arm for one method shows only for one member and one call", "anchors": ["src/sha/sha.rs: SHA", "src/sha3/sha3.rs: SHA3"]}
{"id": "C70", "title": "Digests have the reported length", "statement": "For every hash, XOF and MAC object, whatever was called before, the output of checksum has exactly (bits_len()+7)/8 bytes; for SHAKE this follows changes of the digest length.", "quantifier": "all objects, all histories of calls (undisciplined ones included), all messages", "why_tests_cant": "universal over histories and, for SHA-512/t and SHAKE, over all lengths", "anchors": ["src/digest.rs: bits_len", "src/md5, src/sha, src/sm3, src/sha3, src/hmac, src/cmac, src/zuc/zuc_mac.rs"]}
{"id": "C71", "title": "Reported limits are the enforced limits", "statement": "For every OAEP object, max_message_len does not fail, and encrypt succeeds for exactly the messages that are not longer. For every PKCS#1 v1.5 object, encrypt refuses non-empty messages longer than encrypt_max_message_len and encrypts the others. A PSS object reports in salt_len the salt length asked for at construction, None standing for the digest length and Some(0) for the longest salt that fits, and both choices are accepted whenever some salt fits.", "quantifier": "all key sizes, hashes, messages, salt lengths", "why_tests_cant": "off-by-one at the exact limit, for every modulus length including those not divisible by 8", "anchors": ["src/rsa/oaep.rs: max_message_len, encrypt", "src/rsa/pkcs1.rs: encrypt_max_message_len, encrypt", "src/rsa/pss.rs: new, compute_salt_len, salt_len"]}
{"id": "C72", "title": "Received bytes cannot bring down block ciphers and modes", "statement": "For every block cipher of the library, every mode (ECB, CBC, CFB, OFB, CTR) with every key, initial value, legal padding and segment size, encrypting or decrypting arbitrary bytes - in one call, or through a stream in arbitrary pieces followed by finish - returns Ok or Err: it never panics and never runs forever.", "quantifier": "all ciphers, keys, initial values, byte strings, splits into pieces", "why_tests_cant": "a panic on one malformed ciphertext length or padding byte is a denial of service; the inputs are unbounded", "anchors": ["src/cipher_mode/*.rs: encrypt, decrypt, write, finish, draw", "src/cipher_mode/padding.rs"]}
{"id": "C73", "title": "Received ciphertexts and signatures cannot bring down public-key receivers", "statement": "With a valid key and a hash object in any state its interface can reach, decrypting an arbitrary byte string (RSAES-PKCS1-v1_5, RSAES-OAEP) and verifying an arbitrary signature on an arbitrary message (RSASSA-PKCS1-v1_5 with a supported hash, RSASSA-PSS, DSA, ECDSA) returns Ok or Err: it never panics and never runs forever.", "quantifier": "all keys, ciphertexts, signatures, messages below 2^64 bytes, hash functions", "why_tests_cant": "attacker-chosen inputs of every length and value, including ones no honest sender produces", "anchors": ["src/rsa/pkcs1.rs: decrypt, verify", "src/rsa/oaep.rs: decrypt", "src/rsa/pss.rs: verify", "src/dsa/dsa.rs: verify", "src/ecdsa/ecdsa.rs: verify", "src/dsa/signature.rs: to_bigint"]}
{"id": "C74", "title": "Key stream is used once", "statement": "Over the life of a CTR or OFB object - any sequence of encrypt and decrypt calls, clones of the used object, streams made from it - no two whole blocks of data are masked with the same key stream block, as long as at most 256^blocksize blocks are processed.", "quantifier": "all ciphers, counters, sequences of calls and messages", "why_tests_cant": "universal over histories of one object; reuse shows only when two outputs of a history are compared", "anchors": ["src/cipher_mode/ctr.rs: encrypt, decrypt, clone, encrypt_stream, decrypt_stream", "src/cipher_mode/counter.rs: clone, reset", "src/cipher_mode/ofb.rs: encrypt"]}
{"id": "C75", "title": "A refused message leaves nothing behind", "statement": "When finish of a decrypting stream refuses a message because its padding is wrong, no byte of the refused message is ever returned, and the stream decrypts the next message correctly.", "quantifier": "all ciphers, refused blocks, next messages, partitions of the next ciphertext into writes", "why_tests_cant": "universal over pairs of messages; tests stop at the first error", "anchors": ["src/cipher_mode/ecb.rs: ECBDecrypt::write, ECBDecrypt::finish, ECBDecrypt::reset", "src/cipher_mode/cbc.rs: CBCDecrypt::write, CBCDecrypt::finish, CBCDecrypt::reset", "src/cipher_mode/cfb.rs: CFBDecrypt::write, CFBDecrypt::finish"]}
{"id": "C76", "title": "The hash back ends for x86 agree with the portable ones", "statement": "For every chaining value and all whole blocks, the SSE2 code of MD5 and the SHA-NI code of SHA-1 and SHA-256 in the source tree (not enabled in the build at this commit) leave the same chaining value as the portable code, so that enabling them changes no digest.", "quantifier": "all chaining values, all sequences of blocks", "why_tests_cant": "the code is not compiled by default and the hardware may be missing; equality must hold for every block and state", "anchors": ["src/md5/md5_amd64.rs: update_inner, round1, round2, round3, round4", "src/sha/sha1_amd64.rs: update_amd64", "src/sha/sha256_amd64.rs: sha256_update_amd64", "src/sha/mod.rs", "src/md5/mod.rs"]}
{"id": "C77", "title": "In-place operations give the result of separate buffers", "statement": "CurveP224 and CurveP256 compute with arrays that are passed by pointer, so that an output may be the same array as an input and is stored limb by limb while inputs are still read. Whatever the memory holds before the call, is_on_curve, add, double, scalar and scalar_base_point return the same as when every intermediate result has its own array, and the point operations change no array other than their outputs.", "quantifier": "all memory contents, all arguments, all ways in which the outputs of a doubling (P-224, P-256) or of an addition (P-256) coincide with inputs", "why_tests_cant": "a limb that is overwritten before its last use shows only for particular operands; all of them have to be covered", "anchors": ["src/elliptic/p224.rs: p224_add_a, p224_sub_a, p224_mul_a, p224_square_a, p224_double_jacobian_a, p224_scalar_mult", "src/elliptic/p256.rs: p256_sum_a, p256_diff_a, p256_mul_a, p256_square_a, p256_point_double_a, p256_scalar_mult, p256_scalar_base_mult"]}
{"id": "C78", "title": "Output buffers", "statement": "After a successful encrypt or decrypt of DES, TDES, SM4, AES or of a mode of operation, the caller's buffer holds exactly the output and the returned number is its length, whatever the buffer held before and whatever calls the object has served. A call that fails leaves the buffer as it was; in particular a refused ciphertext leaves no decrypted text behind.", "quantifier": "all ciphers, keys, messages, paddings, IVs, segment sizes, counters, buffer contents and histories of the object's scratch buffers", "why_tests_cant": "tests start from an empty buffer and a fresh object and look at successful calls", "anchors": ["src/cipher.rs: Cipher::encrypt, Cipher::decrypt", "src/des/des.rs, src/des/tdes.rs, src/sm4/sm4.rs, src/aes/aes.rs: encrypt, decrypt", "src/cipher_mode/ecb.rs, cbc.rs, cfb.rs, ofb.rs, ctr.rs: encrypt, decrypt", "src/cipher_mode/padding.rs: unpadding"]}
{"id": "C79", "title": "Keccak's permutation is a permutation", "statement": "For every width b = 25, 50, ..., 1600 and every number of rounds, however large, Keccak::permutation succeeds on every input that is long enough, returns a b-bit string that depends only on the b bits it takes from the input (not on earlier calls of the object), returns different outputs for different b bits, and reaches every b-bit string; on byte strings of exactly b/8 bytes (b >= 200) it is a bijection.", "quantifier": "all widths, all round counts, all inputs, all sequences of calls", "why_tests_cant": "injectivity and surjectivity are statements about all 2^b states", "anchors": ["src/keccak/keccak.rs: Keccak::new, Keccak::permutation, permutation_inner, theta, rho, pi, chi, iota"]}
{"id": "C80", "title": "RSA objects and buffers after errors", "statement": "A PKCS#1 v1.5, OAEP or PSS call that succeeds leaves exactly its output in the caller's buffer, whatever the buffer held before. A call that returns an error leaves no secret in it: decryption and OAEP encryption leave the buffer as it was, PKCS#1 v1.5 encryption leaves it empty, and signing leaves at most the public encoding of the message, in particular no faulty signature when the check after the private-key operation fails. An error does not spoil the object: after any sequence of encrypt, decrypt, sign and verify calls, failing or not, key, label, salt length and hash are unchanged and every further call behaves like on a new object with the same key and the same random source; verify answers as before, and so do decrypt and PKCS#1 v1.5 sign without blinding, or with blinding and a valid key.", "quantifier": "all keys (valid or damaged where not said otherwise), messages, ciphertexts, signatures, buffer contents, random sources and all finite sequences of calls; any hash function obeying the Digest contract", "why_tests_cant": "the object is changed in place through a Cell and is left half-way by every early return; tests use a new object per call and do not look at it or at the buffer after an error", "anchors": ["src/rsa/pkcs1.rs: encrypt, decrypt, sign, verify, get_pkcs1inner_mut", "src/rsa/oaep.rs: encrypt, decrypt, mgf1_xor", "src/rsa/pss.rs: sign, sign_with_salt, emsa_pss_encode, verify, emsa_pss_verify", "src/rsa/rsa.rs: decrypt, decrypt_and_check"]}
{"id": "C81", "title": "DSA and ECDSA objects and containers after errors", "statement": "A DSA or ECDSA sign call that fails leaves the signature container and the key as they were; one that succeeds gives the signature of C49 and C53. After any sequence of sign and verify calls, failing or not, every further call gives the same result, the same container and the same state of the random source as on a newly built object with the same key and the present random source; verify gives the answer it gave before. In particular nothing of an earlier message or nonce gets into a later signature.", "quantifier": "all keys, containers, messages, random sources and finite sequences of calls; any hash obeying the Digest contract; any curve object for ECDSA", "why_tests_cant": "the object keeps hash states, a hash buffer and a random source between calls and is left half-way by every early return", "anchors": ["src/dsa/dsa.rs: sign_inner, verify_inner, sign, verify", "src/ecdsa/ecdsa.rs: sign_inner, verify_inner, sign, verify", "src/dsa/signature.rs: set"]}
{"id": "C82", "title": "Stream histories and failed finish", "statement": "For every sequence of write, draw-off and finish calls on an encrypting or decrypting stream of any mode, over any number of messages and going on after errors, the results are those of a simple specification that remembers only what was written and how much was handed out. A finish that fails changes nothing: leaving it out of the sequence changes no other result, and a message that ended too early is completed by writing the rest and calling finish again.", "quantifier": "all lawful block ciphers, IVs, segment sizes, counters, both paddings (CBC encryption: without padding), and finite sequences of calls", "why_tests_cant": "tests run one message through a stream and stop at the first error; the claim is about every interleaving of calls", "anchors": ["src/cipher_mode/ecb.rs, cbc.rs, cfb.rs, ofb.rs, ctr.rs: write, finish", "src/cipher_mode/pond.rs: Pond, draw_off", "src/cipher_mode/padding.rs: padding, unpadding"]}
{"id": "C83", "title": "Hash collisions come from the compression function", "statement": "If two different messages, written to MD5, SHA-1, SHA-2 or SM3 objects in any chunks, get the same digest, then while hashing them the standard's compression function is applied to two different pairs of chaining value and block with the same result (for the truncated functions, or the two full results differ only after the cut). So neither the padding, nor the length field, nor buffering, nor the choice of chunks ever makes two messages collide.", "quantifier": "all pairs of messages (below 2^61 bytes for the functions with a 64-bit length field, below 2^64 for the others) and all ways to cut them into write calls", "why_tests_cant": "collisions are never met by chance; that the padding creates none is a statement about all pairs of messages", "anchors": ["src/md5/md5.rs: write, checksum", "src/sha/sha1.rs, sha256.rs, sha512.rs: write, checksum", "src/sm3/sm3.rs: write, checksum"]}
{"id": "C84", "title": "Damaged ciphertexts", "statement": "ECB: a plaintext byte depends on its own ciphertext block only, and the ciphertext shows exactly which message blocks are equal. CBC: a damaged ciphertext block destroys its own plaintext block (it never decrypts to the same), flips in the next block exactly the flipped bits and changes nothing else; after lost or inserted blocks, or with a wrong IV, decryption is right again from the second common block on. CFB: a damaged segment flips its own bits, changes nothing before it and nothing after the segments whose register still holds it; lost segments and wrong IVs are overcome in the same way. OFB and CTR: a flipped ciphertext bit flips the same plaintext bit and nothing else. Decryption therefore never detects such changes by itself.", "quantifier": "all lawful block ciphers, IVs, segment sizes, counters, paddings, pairs of ciphertexts that decrypt without error, and byte positions", "why_tests_cant": "it relates the decryptions of all pairs of ciphertexts; tests compare a few", "anchors": ["src/cipher_mode/ecb.rs: ECB::encrypt, ECB::decrypt", "src/cipher_mode/cbc.rs: CBC::decrypt", "src/cipher_mode/cfb.rs: CFB::decrypt", "src/cipher_mode/ofb.rs: OFB::decrypt", "src/cipher_mode/ctr.rs: CTR::decrypt"]}
{"id": "C85", "title": "MACs of changed messages and keys", "statement": "CMAC: changing anything inside one block of a message without changing its length changes the tag; so does exchanging an incomplete last block for another incomplete one. HMAC: a key shorter than a block and the same key followed by zeros, and a key longer than a block and its hash, are interchangeable in every history; apart from that, two equal tags of different messages or keys yield a collision of the hash function between the inner or the outer inputs. 128-EIA3: with the same key, count, bearer and direction the tags of three messages of equal length give the tag of their xor, so these parameters must not be used twice.", "quantifier": "all lawful ciphers with blocks of 8 or 16 bytes, all hashes obeying the trait contract, all keys, messages and chunkings, all positions and kinds of change", "why_tests_cant": "it compares the tags of all pairs of messages and keys; tests compare a few", "anchors": ["src/cmac/cmac.rs: CMAC", "src/hmac/hmac.rs: HMAC::new, set_key", "src/zuc/zuc_mac.rs: ZUCMac"]}
{"id": "C86", "title": "What an ECDSA signature binds and what it does not", "statement": "ECDSA::verify accepts the pair (r, s) for a message exactly if it accepts (r, n - s), which is always a different pair; when p <= r + n (all but a negligible part of the r's) these two are the only accepted pairs with this r for the message and key. Acceptance depends on the message only through the leftmost bits of its hash, as many as n has. When p <= r + n, a signature accepted for two messages under one key has hash numbers that agree modulo n or sum up to -2*d*r; a signature of one message accepted under two keys has equal public keys or 2*z + (d + d')*r = 0 modulo n; and two accepted signatures with the same r under one key let everyone compute the private key from one of two linear congruences with public coefficients.", "quantifier": "all curves whose base point has prime order (the four NIST curves included), all curve objects, hashes, keys, objects with any history, messages below 2^64 bytes and pairs of numbers", "why_tests_cant": "the claims range over all signatures, messages and keys; a test can only show one twin accepted and cannot show that there is no third signature, other message or other key", "anchors": ["src/ecdsa/ecdsa.rs: ECDSA::verify, verify_inner, hash_to_bigint", "src/dsa/signature.rs: SignatureContent"]}
{"id": "C87", "title": "A mode object whose IV could not be renewed refuses data", "statement": "In every history of update_iv and set_iv calls on a CBC, CFB or OFB object, failed calls included, the object uses the last IV that a successful call gave it; a refused set_iv changes nothing. If update_iv fails because the random source fails, the object holds no proper IV: until a later update_iv or set_iv succeeds, it refuses to encrypt and decrypt, through the one-shot functions and the streams, rather than deliver data made with a partial IV.", "quantifier": "all lawful block ciphers, IV sources (including random sources that fail at any word and recover), histories of update_iv and set_iv, messages, paddings, segment sizes and ways of cutting a stream", "why_tests_cant": "The state after a failure depends on how many words were drawn before the random source failed and on all earlier calls; tests use a random source that does not fail.", "anchors": ["src/cipher_mode/initial_vec.rs: DefaultInitialVec::initial_vec", "src/cipher_mode/cbc.rs: update_iv, set_iv, encrypt, decrypt, CBCDecrypt", "src/cipher_mode/cfb.rs: update_iv, set_iv", "src/cipher_mode/ofb.rs: update_iv, set_iv"]}
{"id": "C88", "title": "Length extension of the iterated hashes", "statement": "For MD5, SHA-1, SHA-256, SHA-512 and SM3: from the digest and the length of a message alone, the digest of every message that begins with the padded first message can be computed with the public compression function. A digest of key and message concatenated is therefore not a message authentication code.", "quantifier": "all messages, suffixes and ways of writing them in chunks, up to the length limit of the counters", "why_tests_cant": "It is a relation between the digests of all messages and all their extensions.", "anchors": ["src/md5/md5.rs: MD5", "src/sha/sha1.rs: SHA1", "src/sha/sha256.rs: SHA256", "src/sha/sha512.rs: SHA512", "src/sm3/sm3.rs: SM3"]}
{"id": "C89", "title": "Degenerate keys of DES and triple DES", "statement": "The constructors accept every key. Under the four weak keys encrypting twice gives back the plaintext, and under each of the six pairs of semi-weak keys encryption with one is decryption with the other, whatever the parity bits. Triple DES whose first two or last two keys are equal (up to parity bits) is single DES under the remaining key.", "quantifier": "all keys of these classes and all inputs, valid blocks or not", "why_tests_cant": "It concerns all 2^64 blocks, and for triple DES all keys.", "anchors": ["src/des/des.rs: DES::new, key_schedule, crypt_block", "src/des/tdes.rs: TDES::new, encrypt, decrypt"]}
{"id": "C90", "title": "What one RSA signature or ciphertext can stand for", "statement": "For a valid RSA key, the PKCS#1 v1.5 signatures which verify accepts for a message are exactly one residue class modulo n, the one of the signature sign computes. A signature accepted by two objects with the same public key proves that both use the same hash function and that the two messages have the same digest. A PSS signature accepted for a message fixes a salt, and it is accepted for another message exactly if the salted digests agree, so a signature of two messages is a collision of the hash. An OAEP ciphertext that decrypts under one label decrypts to the same message under every label with the same hash and is refused under every other.", "quantifier": "all valid keys, all lawful hash functions, all messages, signatures, ciphertexts, labels, object states and random sources", "why_tests_cant": "The claims range over all pairs of messages, all hash functions and all byte strings offered as signatures.", "anchors": ["src/rsa/pkcs1.rs: verify", "src/rsa/pss.rs: verify", "src/rsa/oaep.rs: decrypt"]}
{"id": "C91", "title": "What RSA blinding hides", "statement": "With a random source the private exponents are applied only to r^e * c mod n, and which r is used does not depend on the ciphertext. For a valid key and ciphertexts prime to n, each number prime to n is obtained from exactly one of the n draws, except the ciphertext itself, which is obtained from two, because the draw 0 is replaced by 1. So what is exponentiated is almost but not exactly independent of the ciphertext. It does reveal gcd(c, n).", "quantifier": "all valid keys, all ciphertexts, all draws of the random source", "why_tests_cant": "A statement about how many of the n possible draws lead to each value, for every key.", "anchors": ["src/rsa/rsa.rs: PrivateKey::decrypt"]}
{"id": "C92", "title": "What DSA signatures give away", "statement": "Whoever has a copy of the random source as it was before a call of sign (rand_source returns one) can compute the private key from the signature. Two signatures made with the same key from the same state of the source give the key away to everyone who sees them. verify depends on the message only through the hash value modulo q. From a public key alone, accepted pairs can be made for hash values that cannot be chosen, so only the hash function protects against strangers.", "quantifier": "all keys with prime q, all random sources, all messages, all lawful hash functions", "why_tests_cant": "The claims are about all sources and all pairs of messages, including sources whose first draws are rejected.", "anchors": ["src/dsa/dsa.rs: sign_inner, verify_inner, rand_source"]}
{"id": "C93", "title": "No ECDSA secret is preferred", "statement": "When the random source yields all sequences of words equally often, every secret in 1..n-1 that ECDSA::auto_generate_key (and the nonce derivation) can draw has the same number of sequences up to one part in 2^63, and every secret that one round of generate_key accepts has exactly the same number.", "quantifier": "all curves, all secrets; the four named curves for the margin", "why_tests_cant": "A bias of a few bits is invisible in samples; the counts range over 2^320 sequences of words.", "anchors": ["src/ecdsa/ecdsa.rs: rand_field_element, rand_field_element_inner", "src/elliptic/elliptic.rs: generate_key"]}
{"id": "C94", "title": "Printed keys", "statement": "Different keys have different texts (Display and Debug), so a key can be told from its text; and the text of a private key does not show the secret.", "quantifier": "all keys of RSA, DSA and ECDSA", "why_tests_cant": "The texts of all pairs of keys would have to be compared.", "anchors": ["src/rsa/rsa.rs: Display, Debug", "src/dsa/dsa.rs: Display, Debug", "src/elliptic/key_pair.rs: Display, Debug"]}
{"id": "C95", "title": "Scalar multiplication does not show the scalar", "statement": "Someone who sees which branches a scalar multiplication takes, how often its loops turn and which addresses and field operations it uses cannot tell two private keys apart (p224.rs and p256.rs call their implementations constant-time).", "quantifier": "all scalars, all points, CurveP224, CurveP256 and the generic curves", "why_tests_cant": "Timing runs compare a few keys; that the sequence of steps is the same has to hold for every pair of keys.", "anchors": ["src/elliptic/p256.rs: p256_get_scalar, select_jacobian_point, scalar_mult, scalar_base_mult", "src/elliptic/p224.rs: p224_scalar_mult, p224_add_jacobian", "src/elliptic/elliptic.rs: scalar"]}
{"id": "C96", "title": "Acceptance does not betray the message", "statement": "Someone without the key who may send ciphertexts of their own to a receiver and sees only whether decryption succeeds learns nothing about an intercepted message.", "quantifier": "all ciphers, keys, messages, IVs; all strategies of asking", "why_tests_cant": "One has to exhibit a strategy that works against every key and message, or show that no question helps.", "anchors": ["src/cipher_mode/padding.rs: DefaultPadding::unpadding", "src/cipher_mode/cbc.rs: CBC::decrypt, CBCDecrypt::finish", "src/cipher_mode/cfb.rs: CFB::decrypt"]}
{"id": "C97", "title": "A refused OAEP ciphertext does not tell why", "statement": "Whoever sees how an RSAES-OAEP decryption object refuses ciphertexts of their choice learns nothing about the message in an intercepted ciphertext: all refusals look the same.", "quantifier": "all keys, hash functions, labels, messages, seeds, ciphertexts, states of the receiver's object; all strategies of asking", "why_tests_cant": "One has to know what every possible ciphertext makes visible, and what an adaptive strategy can compute from it.", "anchors": ["src/rsa/oaep.rs: OAEPInner::decrypt_inner", "src/crypto_err.rs: CryptoError (Display)", "src/rsa/rsa.rs: PrivateKey::decrypt"]}
{"id": "C98", "title": "A private-key computation that went wrong does not leave the crate", "statement": "If an RSA private key is damaged (a flipped bit in an exponent, in a prime or in a precomputed value, or a composite number that key generation took for a prime), the private-key operations report an error or give the right answer; in particular no signature that is handed out fails to verify, and no answer helps to factor the modulus.", "quantifier": "all private keys, valid or not; all hash functions, messages, salts, random sources, with and without blinding; all ciphertexts; all wrong values of one exponent", "why_tests_cant": "A test has one key and no fault; here every possible damage to the key and every input count.", "anchors": ["src/rsa/rsa.rs: PrivateKey::decrypt, PrivateKey::decrypt_and_check, PrivateKey::generate_multi_prime_key", "src/rsa/pkcs1.rs: PKCS1::sign", "src/rsa/pss.rs: PSS::sign"]}
{"id": "C99", "title": "The memory accesses of the block ciphers do not show key or block", "statement": "Which table entries the block ciphers read, when a cipher object is made and when a block is encrypted or decrypted, does not depend on the key (only on its length) or on the block, so that someone who shares a cache with the program learns neither.", "quantifier": "all keys of all supported lengths and all blocks, for the portable AES, SM4 and DES; all sizes of groups of neighbouring table entries that cannot be told apart", "why_tests_cant": "The result of a call is the same whatever it reads; a test sees results, and timing measurements see one machine and a few keys.", "anchors": ["src/aes/aes_generic.rs: key_schedule, crypt_block, decrypt_block", "src/sm4/sm4.rs: key_schedule, f_tau, ed_inner", "src/des/des.rs: f_sbox, feistel, crypt_block"]}
{"id": "C100", "title": "Ciphertexts show repetitions and nothing else to someone who knows nothing about the cipher", "statement": "If the cipher is any permutation of the blocks, all equally likely, then someone who sees the IVs and ciphertexts of any calls can tell of the messages only how they must repeat: a guess for the messages is possible exactly if the arguments it gives the cipher (ECB: the padded message blocks; CBC: the message blocks xored with the ciphertext blocks before them, the padded tail unchained; CFB with whole-block segments, OFB and CTR: the values that the masks must be) are equal exactly where the values seen are equal, and all guesses that are possible are explained by the same number of permutations. For OFB that number also depends on how many different masks there are.", "quantifier": "all block sizes, all lists of calls with any IVs, messages and ciphertexts of fitting lengths, both paddings (ECB, CBC, CFB), whole blocks (CFB segments of a block, OFB, CTR), all counters", "why_tests_cant": "It counts over all ciphers and all guesses at once; a test sees one key and one ciphertext, and a leak through a chaining mistake still gives right results.", "anchors": ["src/cipher_mode/ecb.rs: ECB::encrypt", "src/cipher_mode/cbc.rs: CBC::encrypt", "src/cipher_mode/cfb.rs: CFB::encrypt", "src/cipher_mode/ofb.rs: OFB::encrypt", "src/cipher_mode/ctr.rs: CTR::encrypt"]}
{"id": "C101", "title": "ZUC objects with different parameters never share a state, the key stream is purely periodic, and cipher and MAC use separate key streams", "statement": "After any number of words, two ZUC generators are in the same state only if they were made with the same key and the same IV (so nothing of key and IV is lost), and the words of a generator come back from the first on. Two ZUCCipher objects, or two ZUCMac objects, start from the same generator exactly if key, count, direction and the bearer modulo 32 are equal. A ZUCCipher and a ZUCMac object with the same key, count, bearer and direction use different key streams.", "quantifier": "all keys and IVs of 16 bytes, all counts, bearers and directions, any number of words, all plaintexts and messages", "why_tests_cant": "Equal states of two different keys, or a period that is not entered at once, would need a search through 2^128 keys or up to 2^560 states; that the tag can be computed without the key is a statement about all keys.", "anchors": ["src/zuc/zuc_core.rs: ZUC::from_slice, ZUC::zuc", "src/zuc/zuc_cipher.rs: ZUCCipher::from_slice", "src/zuc/zuc_mac.rs: ZUCMac::from_slice, ZUCMac::write, ZUCMac::checksum"]}
{"id": "C102", "title": "Whether RSAES-PKCS1-v1_5 decryption accepts a ciphertext tells nothing about an encrypted message", "statement": "Someone who may submit ciphertexts of their own to PKCS1::decrypt and learns only whether each is accepted learns nothing about the message of a given ciphertext. In particular all refusals of ciphertexts of the right length and range look the same.", "quantifier": "all valid private keys of at least 12 bytes (with and without CRT values), all messages and paddings, all states of the receiver's object and of its random source, with and without blinding, all (adaptive) sequences of submitted ciphertexts", "why_tests_cant": "The claim is about every strategy and every message; a test can show one ciphertext refused or accepted, but not that the set of accepted factors identifies the message, nor that the candidate intervals of the attack never lose it.", "anchors": ["src/rsa/pkcs1.rs: PKCS1::decrypt"]}
{"id": "C103", "title": "What an object hands out can be used without harm to the object", "statement": "The hash returned by digest_func starts afresh, whatever the object has hashed before. An object made of what rand_source returned, or a copy made with clone, can be used beside the original: no secret of the original (private key, message) becomes known from the outputs of the two, and a copy does not repeat IVs or key stream.", "quantifier": "all hash functions, keys, messages, random sources and IV sources, all histories before the copy, all calls after it", "why_tests_cant": "Whether two objects stay independent is a statement about all later outputs of both; a test can at best see one repetition, not that every copy repeats and what follows from it.", "anchors": ["src/dsa/dsa.rs: DSA::digest_func, DSA::rand_source", "src/ecdsa/ecdsa.rs: ECDSA::digest_func, ECDSA::rand_source", "src/rsa/pss.rs: PSS::digest_func, PSS::rand_source", "src/rsa/oaep.rs: OAEP::digest_func, OAEP::rand_source", "src/rsa/pkcs1.rs: PKCS1::digest_func, PKCS1::rand_source", "src/zuc/zuc_cipher.rs: ZUCCipher::clone", "src/cipher_mode/cbc.rs: CBC::clone", "src/cipher_mode/cfb.rs: CFB::clone", "src/cipher_mode/ofb.rs: OFB::clone"]}
{"id": "C104", "title": "Different messages have different digests, so that a signature stands for one message", "statement": "Nobody has two different messages for which a hash object of this crate gives the same digest; a signature that verify accepts for one message is not known to be accepted for another; and breaking two hash functions written side by side is as hard as breaking both.", "quantifier": "all messages, ways of splitting them into writes, common endings, keys, signatures and object states; all numbers of collisions", "why_tests_cant": "Tests compare digests of a few messages. That a pair stays a collision after every common ending, and under every key and signature, and that t collisions give 2^t messages, are statements about all of them.", "anchors": ["src/md5/md5.rs: MD5::write, MD5::checksum", "src/sha/sha1.rs: SHA1::write, SHA1::checksum", "src/sha/sha256.rs: SHA256", "src/sha/sha512.rs: SHA512", "src/sm3/sm3.rs: SM3", "src/rsa/pkcs1.rs: PKCS1::verify", "src/rsa/pss.rs: PSS::verify", "src/dsa/dsa.rs: DSA::verify", "src/ecdsa/ecdsa.rs: ECDSA::verify"]}
{"id": "C105", "title": "An accepted signature was made with the private key of the public key it was checked with", "statement": "When verify accepts a signature with a public key received from someone else, somebody who holds the private key of that public key signed this message, and the signature belongs to this public key and no other.", "quantifier": "all public keys that the constructors accept, messages, secret numbers k, accepted signatures, curves with a correct setting, domain parameters, hash functions", "why_tests_cant": "Tests verify with keys they made. That one key is good for signing every message without a secret, that a signature can be moved to any other message by choosing the key, and that the check of the point leaves no such key are statements about all keys and messages.", "anchors": ["src/ecdsa/ecdsa.rs: ECDSA::new_unchcek, ECDSA::verify", "src/elliptic/elliptic.rs: CurveParams::is_on_curve, CurveParams::add, CurveParams::scalar, CurveParams::scalar_base_point", "src/elliptic/key_pair.rs: PublicKey::new_uncheck", "src/dsa/dsa.rs: PublicKey::new_uncheck, DSA::new_uncheck, DSA::verify", "src/rsa/rsa.rs: PublicKey::from_nat, PublicKey::is_valid", "src/rsa/pkcs1.rs: PKCS1::new, PKCS1::verify"]}
{"id": "C106", "title": "The memory accesses of ZUC and triple DES do not show the key", "statement": "Someone who sees at which addresses a ZUC generator, a ZUC cipher object or triple DES reads its tables learns nothing about key, initial vector and messages.", "quantifier": "all keys, initial vectors, counts, bearers, directions, messages, histories of encrypt, decrypt and reset calls, blocks, triples of DES keys", "why_tests_cant": "Tests see outputs, not addresses. What the addresses tell is a statement about all pairs of keys: that no two of them give the same addresses.", "anchors": ["src/zuc/zuc_core.rs: ZUC::sbox, ZUC::non_linear_f, ZUC::init_and_first_step, ZUC::from_slice, ZUC::set_slice, ZUC::zuc", "src/zuc/zuc_cipher.rs: ZUCCipher::from_slice, ZUCCipher::reset, ZUCCipher::encrypt, ZUCCipher::decrypt", "src/zuc/zuc_const_tables.rs: S_0, S_1", "src/des/tdes.rs: TDES::encrypt, TDES::decrypt"]}
{"id": "C107", "title": "A key for CMAC may also be used to encrypt", "statement": "Someone who has no key, but sees what encryption objects with the key of a CMAC object return, cannot compute the tag of any message.", "quantifier": "all lawful ciphers with blocks of 8 or 16 bytes, IVs, counters, both paddings, messages; for the positive part all permutations of the blocks", "why_tests_cant": "Tests use one object per key. That two answers of one object give the tags of all messages of another object is a statement about all keys, IVs and messages.", "anchors": ["src/cmac/cmac.rs: CMAC::new, CMAC::write, CMAC::checksum", "src/cipher_mode/ecb.rs: ECB::encrypt", "src/cipher_mode/cbc.rs: CBC::encrypt", "src/cipher_mode/cfb.rs: CFB::encrypt", "src/cipher_mode/ofb.rs: OFB::encrypt", "src/cipher_mode/ctr.rs: CTR::encrypt"]}
{"id": "C108", "title": "One RSA key may serve for decryption and for signatures", "statement": "An object that decrypts (RSAES-OAEP or RSAES-PKCS1-v1_5) and answers to ciphertexts of anyone's choice does not help to make signatures (RSASSA-PKCS1-v1_5 or RSASSA-PSS) that verify under the same key, and an object that signs does not help to decrypt.", "quantifier": "all valid keys in every form, messages, labels, salts, hash functions, states of the receiver's object, with and without blinding", "why_tests_cant": "Tests use a key for one purpose. That the error texts of one object amount to the private operation for every number is a statement about all keys, numbers and states; it is shown by a program with a bound on its questions.", "anchors": ["src/rsa/oaep.rs: OAEP::decrypt", "src/rsa/pkcs1.rs: PKCS1::decrypt, PKCS1::sign, PKCS1::verify", "src/rsa/pss.rs: PSS::verify", "src/rsa/rsa.rs: PrivateKey::decrypt"]}
{"id": "C109", "title": "Builds with overflow checks and builds without give the same results", "statement": "No call of AES, SM4, DES, triple DES, ZUC, the ZUC MAC or the rounds of Keccak-p panics because of an index out of range, an overflowing sum or product, a difference below zero or a shift by the width of the type: builds with overflow checks (debug) and builds without (release) compute the same values.", "quantifier": "all keys, blocks, messages, IV parameters, histories of calls, permutation widths and numbers of rounds", "why_tests_cant": "A test sees the values it feeds in, in the build it runs in. Whether some S-box index, shift amount or carry leaves its range for some key and block is a question about all of them.", "anchors": ["src/aes/aes_generic.rs: key_schedule, crypt_block, decrypt_block", "src/sm4/sm4.rs: key_schedule, ed_inner", "src/des/des.rs: permute, ks_rotate, sbox_idx, f_sbox, crypt_block", "src/des/tdes.rs: encrypt, decrypt", "src/zuc/zuc_core.rs: rhl31, add_mod31, lfsr_with_initial_mode, lfsr_with_work_mode", "src/zuc/zuc_cipher.rs: encrypt", "src/zuc/zuc_mac.rs: write, checksum", "src/keccak/keccak.rs: rc, iota, permutation_inner"]}
{"id": "C110", "title": "Sizes near the limit of the machine word are handled or refused", "statement": "A size given by the caller (the width of a counter, the salt length of PSS, the length of an extendable digest, the rate of a sponge, the number of primes) is either refused with an error or handled as if numbers had no bound, in builds with overflow checks and in builds without.", "quantifier": "all 64-bit sizes, both kinds of builds, all keys, digests, messages and signatures", "why_tests_cant": "The failing sizes are a handful out of 2^64; a test would have to guess them, in the right build.", "anchors": ["src/cipher_mode/counter.rs: DefaultCounter::new, next", "src/rsa/pss.rs: compute_salt_len, new_uncheck, auto_generate_key, emsa_pss_verify, sign_inner", "src/rsa/oaep.rs: new_uncheck", "src/rsa/rsa.rs: generate_multi_prime_key", "src/keccak/keccak.rs: KeccakSponge::new"]}
{"id": "C111", "title": "SHAKE can be the digest of public-key objects", "statement": "A SHAKE object of any output length, in bytes or bits, can be given as digest to OAEP, PSS, DSA and ECDSA, and encryption and signatures then work as with the other digests; HMAC refuses it with an error. Every call returns.", "quantifier": "SHAKE128 and SHAKE256, all output lengths in bits, all valid keys, labels, salts, messages and random sources", "why_tests_cant": "The output length is a parameter of the caller without a bound; the tests use only the fixed-length digests.", "anchors": ["src/sha3/shake.rs: Shake128, Shake256", "src/rsa/oaep.rs: new_uncheck, encrypt_inner, mgf1_xor", "src/rsa/pss.rs: new_uncheck, emsa_pss_encode, mgf1_xor", "src/dsa/dsa.rs: sign_inner, verify_inner", "src/ecdsa/ecdsa.rs: sign, verify", "src/hmac/hmac.rs: new"]}
{"id": "C112", "title": "DES and triple DES give the same results on machines of either byte order", "statement": "A DES or triple DES object made from the same key gives the same ciphertext and plaintext for the same block whether the program runs on a little-endian or on a big-endian machine, namely that of FIPS 46-3; on each machine decryption undoes encryption.", "quantifier": "both byte orders, all keys, all blocks", "why_tests_cant": "The code has a separate branch for each byte order, and tests only run on the machine of the developer.", "anchors": ["src/des/des.rs: ks_rotate, cvt_to_bytes, cvt_from_bytes, f_sbox, crypt_block", "src/des/tdes.rs: TDES"]}
{"id": "C113", "title": "The code for x86 reads and writes only memory it may", "statement": "Every access through a raw pointer in the x86 code, made by constructing an AES object and by encrypting and decrypting a block (and by hashing in the disabled x86 code of MD5, SHA-1 and SHA-256), stays within the array it goes to, has the alignment its instruction demands, and writes only through pointers that allow it.", "quantifier": "all keys and blocks of all lengths; data of all lengths for the hash functions", "why_tests_cant": "An access out of bounds goes unnoticed in tests as long as the neighbouring memory is mapped; whether an array happens to be aligned depends on the build.", "anchors": ["src/aes/aes_amd64.rs: key_schedule_128, key_schedule_192, key_schedule_256, cvt_i2d, cvt_d2i, crypt_block_inner, decrypt_block_inner, aes_128, aes_192, aes_256", "src/aes/aes.rs: new, encrypt, decrypt", "src/sha/sha1_amd64.rs: update_amd64, update", "src/sha/sha256_amd64.rs: sha256_update_amd64, sha256_update", "src/md5/md5_amd64.rs: update_inner"]}
{"id": "C114", "title": "Long messages are hashed alike on machines of either word size", "statement": "The objects of MD5, SHA-1, SHA-2, SM3 and the ZUC MAC count the bytes or bits written to them in a machine word. On machines with 64-bit and with 32-bit words, in debug and in release builds, the digest of every message the standard allows, written in any pieces, is that of the standard, and nothing panics.", "quantifier": "all messages of all lengths in any pieces; both word sizes; both kinds of build", "why_tests_cant": "The messages concerned have between 512 MiB and several gigabytes, and 32-bit machines are rarely tested.", "anchors": ["src/md5/md5.rs: write, checksum", "src/sha/sha1.rs: write, checksum", "src/sha/sha256.rs: write, checksum", "src/sha/sha512.rs: write, checksum", "src/sm3/sm3.rs: write, checksum", "src/zuc/zuc_mac.rs: write, checksum"]}
{"id": "C115", "title": "A cipher that fails in the middle of a stream", "statement": "A cipher may live in a token or a device, and any call of it may fail. On the streams of all five modes a call during which the cipher fails reports the error, and the client can recover: by making the call again, or by going on as if it had not been made, it gets the output for exactly the data whose writes it knows to have succeeded. Output handed out before stays valid, and reset() always gives a new stream.", "quantifier": "all block ciphers; all schedules of failing calls and everything a failing call may leave in its destination; all histories of write, draw_off, finish and reset", "why_tests_cant": "A cipher that fails at the worst moment has to be simulated, the moments are unbounded in number, and the damage shows up calls later as output of the right form.", "anchors": ["src/cipher_mode/ecb.rs: write, finish", "src/cipher_mode/cbc.rs: write, finish", "src/cipher_mode/cfb.rs: write, finish, encrypt_inner, decrypt_inner", "src/cipher_mode/ofb.rs: write, finish, encrypt_inner", "src/cipher_mode/ctr.rs: write, finish, encrypt_inner", "src/cipher_mode/pond.rs: Pond"]}
{"id": "C116", "title": "Single calls and CMAC over a cipher that fails", "statement": "When the cipher under encrypt, decrypt or a CMAC object fails in the middle of a call, the caller learns of it, the buffer holds nothing but a prefix of the right output, and the client can recover: the same call made again on the same object gives the right result as soon as the cipher works, and no later tag or ciphertext is affected.", "quantifier": "all block ciphers; all schedules of failing calls and everything a failing call may leave in its destination; all messages, paddings, segment sizes, buffers and numbers of attempts; all histories of write, checksum and reset on a CMAC object", "why_tests_cant": "The outcome depends on which call of an external cipher fails, and the wrong results are well-formed ciphertexts and tags that nobody recognises as wrong.", "anchors": ["src/cipher_mode/ecb.rs: encrypt, decrypt", "src/cipher_mode/cbc.rs: encrypt, decrypt", "src/cipher_mode/cfb.rs: encrypt, decrypt, encrypt_inner, decrypt_inner", "src/cipher_mode/ofb.rs: encrypt, encrypt_inner", "src/cipher_mode/ctr.rs: encrypt, encrypt_inner", "src/cmac/cmac.rs: new, write, checksum, reset"]}
{"id": "C117", "title": "What a number encrypted with a public RSA key tells everybody", "statement": "PublicKey::encrypt hides the number it is given: someone who has only public keys and ciphertexts made by encrypt learns nothing about the message, whatever key and message are used, to however many recipients it is sent, and cannot make a meaningful ciphertext from others.", "quantifier": "all valid keys with any number of primes, all public keys, all messages, all sets of recipients", "why_tests_cant": "No list of messages shows that some unknown ones stay as they are, or how many ciphertexts of one message give it away; these are number-theoretic facts about every key.", "anchors": ["src/rsa/rsa.rs: PublicKey::encrypt, PublicKey::is_valid"]}
{"id": "C118", "title": "CTR with a caller's counter that comes to an end", "statement": "When a counter of the caller's has no more values, CTR refuses every call that needs one with an error, hands out nothing that is masked with anything but the next unused counter value, keeps what was produced before the end available, and starts again only after reset. No call panics.", "quantifier": "all lawful ciphers, all counters with any number N of values, all messages and all histories of write, draw_off, finish, reset and single encrypt or decrypt calls on the same object", "why_tests_cant": "Tests use the default counter, which never ends. A second use of a counter value would need a particular history to show up; it must be excluded for all of them.", "anchors": ["src/cipher_mode/ctr.rs: CTR::encrypt, CTR::decrypt, encrypt_inner, CTREncrypt::write, CTREncrypt::finish, CTREncrypt::reset, CTRDecrypt", "src/cipher_mode/counter.rs: Counter"]}
{"id": "C119", "title": "The random part of the RSA paddings is unbiased", "statement": "With a source whose words are even and independent, every OAEP seed and every PSS salt is used with exactly the same frequency, and so is every non-zero PKCS#1 v1.5 padding string, although zero bytes are skipped and the rest of the last word thrown away. No seed, salt or padding string is missed.", "quantifier": "all valid keys, hashes, labels, messages, seeds, salts and padding strings; all sequences of random words, counted", "why_tests_cant": "A frequency is a statement about all sequences of random words at once; a test sees a handful. A bias such as a byte value left out, or a string shortened, shows in no single run.", "anchors": ["src/rsa/oaep.rs: OAEP::encrypt", "src/rsa/pss.rs: PSS::sign", "src/rsa/pkcs1.rs: PKCS1::encrypt"]}
{"id": "C120", "title": "Objects that generate their own key work", "statement": "auto_generate_key of the RSA schemes never panics, and an object it returns works together with every object made from its public key: what the other encrypts is decrypted, every message can be signed, the other accepts the signature, and the salt has the length asked for.", "quantifier": "all bit lengths, hashes, labels, salt lengths, messages, random sources and sequences of primes", "why_tests_cant": "Tests generate a few keys of usual length. The checks of the bit length come before the key exists and are made again afterwards; that they agree, and that a key passed on without a check is good, concerns all lengths and all primes.", "anchors": ["src/rsa/pkcs1.rs: PKCS1::auto_generate_key", "src/rsa/oaep.rs: OAEP::auto_generate_key", "src/rsa/pss.rs: PSS::auto_generate_key", "src/rsa/rsa.rs: PrivateKey::generate_key"]}
{"id": "C121", "title": "How long the key stream of OFB lasts", "statement": "For every cipher, key and IV the key stream of OFB has one period: two blocks of it are equal exactly if their distance is a multiple of the period, and the IV itself appears as the last block of each period. With two IVs either one key stream is the other one from some block on, or they never have a block in common. For someone who knows nothing about the cipher all periods from 1 to the number of blocks are equally likely. With a weak key of DES the period is at most 2: every second block of the message is encrypted by adding the public IV; the same holds for triple DES with a weak key beside two equal neighbouring ones.", "quantifier": "all lawful block ciphers, IVs, pairs of IVs, messages of any length and block numbers; all permutations of the blocks, counted; all weak keys with any parity bits", "why_tests_cant": "A period of 2^63 blocks is out of reach of any test, and how often short periods occur is a statement about all keys or permutations at once.", "anchors": ["src/cipher_mode/ofb.rs: OFB::encrypt, OFBEncrypt", "src/des/des.rs: DES", "src/des/tdes.rs: TDES"]}
{"id": "C122", "title": "CMAC can be the digest of other objects", "statement": "A CMAC object over any block cipher that CMAC::new accepts can be given wherever a digest is asked for. HMAC over it returns the values of FIPS 198-1 with CMAC in the place of the hash function, for every key and history of calls. OAEP decrypts what it encrypted. The signatures which PSS, DSA and ECDSA make with it are accepted, under the conditions under which they are with hash functions: modulus lengths of PSS (C48), digests not longer than q for DSA (C49).", "quantifier": "all lawful block ciphers that CMAC accepts, all cipher keys, HMAC keys, histories of calls, valid RSA, DSA and ECDSA keys, labels, salts, messages and random sources", "why_tests_cant": "The tests never give a CMAC object to another object; the combinations of ciphers, keys and messages have no bound.", "anchors": ["src/cmac/cmac.rs: CMAC, impl Digest for CMAC", "src/hmac/hmac.rs: HMAC", "src/rsa/oaep.rs: OAEP", "src/rsa/pss.rs: PSS", "src/dsa/dsa.rs: sign_inner, verify_inner", "src/ecdsa/ecdsa.rs: sign, verify"]}
{"id": "C123", "title": "What arrives over a live connection", "statement": "Two programs share a key: one writes a message to an encrypting stream in pieces and sends off what is ready whenever it likes, the other one writes whatever has arrived, in pieces of any size, to a decrypting stream and draws off what is ready whenever it likes. In every interleaving no call fails and what the receiver has is an initial part of what was sent. Once all that is ready has been sent, delivered and drawn off, the receiver has every whole block (OFB, CTR), every whole segment (CFB), or every whole block but the last one (ECB, CBC). When the sender ends the message, everything is delivered and the receiver ends it too, it has the whole message: for OFB and CTR always, for CFB with the default padding always and without padding for whole segments, for ECB and CBC except for the messages of C06, C08 and C09.", "quantifier": "every schedule of send, flush, deliver, read; every piece size on either side; every message; every block cipher; all five modes, every segment size of CFB, every counter of CTR", "why_tests_cant": "the pieces on the two sides and the moments at which either program acts can be combined in unboundedly many ways; a test runs one schedule", "anchors": ["src/cipher_mode/pond.rs: EncryptStream::write, EncryptStream::finish, DecryptStream::write, DecryptStream::finish, Pond::draw_off", "src/cipher_mode/cfb.rs: CFBEncrypt, CFBDecrypt", "src/cipher_mode/cbc.rs: CBCEncrypt, CBCDecrypt", "src/cipher_mode/ctr.rs: CTREncrypt, CTRDecrypt"]}
{"id": "C124", "title": "Several messages over one connection", "statement": "The two ends of C123 can send one message after the other over the same two streams, without resetting them: after each message the sender calls finish, everything is delivered and the receiver calls finish. After any number of messages, each under any schedule, the receiver has exactly the messages that were sent, in order.", "quantifier": "every number of messages; every schedule of each; every block cipher; all five modes, every segment size of CFB, every counter of CTR", "why_tests_cant": "a test sends a fixed number of messages under fixed schedules; whether the two ends stay in step is a matter of all histories", "anchors": ["src/cipher_mode/pond.rs: EncryptStream::finish, DecryptStream::finish", "src/cipher_mode/cbc.rs: CBCEncrypt::finish, CBCDecrypt::finish", "src/cipher_mode/ctr.rs: CTREncrypt, CTRDecrypt", "src/cipher_mode/cfb.rs: CFBEncrypt, CFBDecrypt", "src/cipher_mode/ofb.rs: OFBEncrypt, OFBDecrypt"]}
{"id": "C125", "title": "A message can be processed in parts", "statement": "Cut a message at any block (segment) boundary. Encrypting the first part without padding and then the second part, under the initialization vector that the first ciphertext gives (CBC: its last block; CFB: the last block's worth of IV and ciphertext; OFB: the last block of message xor ciphertext; CTR: the counter as the first call left it), yields the two pieces of the ciphertext of the whole message. The same holds of decryption: if the second piece decrypts, the whole decrypts to the two results one after the other. With the counter of the crate, any part that starts at a block boundary can be processed alone, with a counter started at the initial value plus the number of blocks before it.", "quantifier": "every message and every cut at a block or segment boundary; every block cipher, IV, padding, segment size and counter", "why_tests_cant": "a test cuts a few messages at a few places; the law must hold at every boundary, also where the counter wraps around", "anchors": ["src/cipher_mode/ecb.rs: ECB::encrypt, ECB::decrypt", "src/cipher_mode/cbc.rs: CBC::encrypt, CBC::decrypt", "src/cipher_mode/cfb.rs: CFB::encrypt, CFB::decrypt", "src/cipher_mode/ofb.rs: OFB::encrypt", "src/cipher_mode/ctr.rs: CTR::encrypt", "src/cipher_mode/counter.rs: DefaultCounter"]}
{"id": "C126", "title": "Streams release output promptly", "statement": "Between two writes, what a stream of a mode has released (drawn off already, or ready to be drawn off) is exactly the one-shot result, without padding, on the whole blocks (segments) written so far; a decrypting ECB or CBC stream keeps the last block back. The stream stores the remaining bytes of the input and nothing else: less than a block, at most one block where the last one is kept back. Writing never fails, whatever the bytes, and output that was released does not depend on later input.", "quantifier": "every sequence of writes of any sizes, output drawn off at any points; every block cipher, IV, padding, segment size and counter; hostile ciphertexts included", "why_tests_cant": "a test looks at a stream after a few writes; the law is about every prefix of every history", "anchors": ["src/cipher_mode/ecb.rs: ECBEncrypt::write, ECBDecrypt::write", "src/cipher_mode/cbc.rs: CBCEncrypt::write, CBCDecrypt::write", "src/cipher_mode/cfb.rs: CFBEncrypt::write, CFBDecrypt::write", "src/cipher_mode/ofb.rs: OFBEncrypt::write, OFBDecrypt::write", "src/cipher_mode/ctr.rs: CTREncrypt::write, CTRDecrypt::write", "src/cipher_mode/pond.rs: Pond::draw_off"]}
{"id": "C127", "title": "Damage on the way to a receiving stream", "statement": "A decrypting stream releases its output while the ciphertext still arrives. However the ciphertext is cut up: in ECB equal ciphertext blocks are released as equal message blocks; in CBC one damaged block changes the block released for it and flips the same bits of the next, and nothing else; after lost or inserted blocks (CBC) or segments (CFB), and even with a different IV, the stream releases the right bytes again as soon as it has had a block of undamaged ciphertext, and as many of them; in OFB and CTR exactly the flipped bits are flipped.", "quantifier": "every pair of histories of writes with output drawn off at any points; every block cipher, IV, padding, segment size and counter; damage of any kind as stated", "why_tests_cant": "a test damages a few positions of a few ciphertexts; self-synchronisation is a statement about all positions, histories and damages", "anchors": ["src/cipher_mode/ecb.rs: ECBDecrypt::write", "src/cipher_mode/cbc.rs: CBCDecrypt::write", "src/cipher_mode/cfb.rs: CFBDecrypt::write", "src/cipher_mode/ofb.rs: OFBDecrypt::write", "src/cipher_mode/ctr.rs: CTRDecrypt::write"]}
{"id": "C128", "title": "A ciphertext that lost its end is refused", "statement": "Whatever message is encrypted, a receiver who gets only a first part of the ciphertext gets an error from decrypt and not a shorter message.", "quantifier": "every message, every cut; every block cipher, IV, segment size and counter; all five modes with the default padding (OFB and CTR have none)", "why_tests_cant": "a test cuts a few ciphertexts; whether a cut is noticed depends on the bytes of the message and the place of the cut", "anchors": ["src/cipher_mode/padding.rs: DefaultPadding::unpadding", "src/cipher_mode/ecb.rs: ECB::decrypt", "src/cipher_mode/cbc.rs: CBC::decrypt", "src/cipher_mode/cfb.rs: CFB::decrypt", "src/cipher_mode/ofb.rs: OFB::decrypt", "src/cipher_mode/ctr.rs: CTR::decrypt"]}
{"id": "C129", "title": "A ciphertext with something appended is refused", "statement": "If a ciphertext decrypts, the same ciphertext with anything appended gives an error from decrypt.", "quantifier": "every ciphertext that is accepted, every non-empty addition; every block cipher, IV, segment size and counter; all five modes with the default padding (OFB and CTR have none)", "why_tests_cant": "a test appends a few bytes to a few ciphertexts; whether that is noticed could depend on every byte", "anchors": ["src/cipher_mode/padding.rs: DefaultPadding::unpadding", "src/cipher_mode/ecb.rs: ECB::decrypt", "src/cipher_mode/cbc.rs: CBC::decrypt", "src/cipher_mode/cfb.rs: CFB::decrypt", "src/cipher_mode/ofb.rs: OFB::decrypt", "src/cipher_mode/ctr.rs: CTR::decrypt"]}
{"id": "C130", "title": "A receiving stream and a single call take the same ciphertexts", "statement": "For any bytes received, in any pieces, the decrypting stream and decrypt of the same object both return the same message, or both return an error.", "quantifier": "all bytes, whoever made them; every way of cutting them into writes and of drawing off output; every block cipher, padding and IV; ECB and CBC (CFB, OFB and CTR are in C12, C13 and C14)", "why_tests_cant": "a test feeds ciphertexts that were made by encrypt; here the bytes are arbitrary and so are the pieces", "anchors": ["src/cipher_mode/ecb.rs: ECBDecrypt::write, ECBDecrypt::finish, ECB::decrypt", "src/cipher_mode/cbc.rs: CBCDecrypt::write, CBCDecrypt::finish, CBC::decrypt", "src/cipher_mode/padding.rs: DefaultPadding::unpadding"]}
{"id": "C131", "title": "What protects ECDSA signatures against strangers", "statement": "verify accepts a pair (r, s) for a message exactly if there are numbers u and v such that r is the first coordinate of uG + vQ modulo n, s*v = r and the hash number of the message is u*s modulo n. Everybody can choose u and v, so that only the hash function keeps strangers from making accepted pairs; for a message whose hash number is a multiple of n the first coordinate of the public key, taken twice, is accepted. Whoever knows the per-message secret of one accepted signature knows the private key up to the sign of the secret.", "quantifier": "all curves whose base point has prime order (the four NIST curves included), all curve objects, lawful hashes, keys, objects with any history, messages below 2^64 bytes and pairs of numbers; for the last part all r with p <= r + n", "why_tests_cant": "a test checks a few signatures; which pairs a verifier accepts is a question about all pairs, messages and keys", "anchors": ["src/ecdsa/ecdsa.rs: ECDSA::verify, verify_inner, hash_to_bigint", "src/dsa/signature.rs: SignatureContent"]}
