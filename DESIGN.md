# Formal model of rcrypto: design

The model is written in Lean 4 under `lean/Verif/`. It was written by reading `/repo`; the Rust code was neither
built nor run. `properties.jsonl` holds the English properties, `MANIFEST.json` maps each of them to theorems,
`seeded/LOG.jsonl` records the wrong programs the theorems were tested against.

## Layout

* `Verif/Basic.lean`: bytes, words, faults, the block-cipher interface.
* `Verif/Model/*.lean`: one file per source module. Every definition cites the file and lines it models.
* `Verif/Spec/*.lean`: small, independent specifications (textbook modes, FIPS/RFC/GM definitions, group law).
  They do not import the model (they share `Basic.lean` for bytes and words), with three exceptions: `Spec/Hash`, `Spec/SHA3` and
  `Spec/Facade` import the object types in order to say what a history of calls on an object is (`runDigest` and the like). The ideal
  results of a history (`idealDigests`, `idealTags`, `idealSHA3`) do not mention the model.
* `Verif/Proof/*.lean`: helper lemmas.
* `Verif/Props/*.lean`: the property theorems (`C01_…`), each with a non-vacuity `example`.
* `Verif/Check/*.lean`: tests of the model itself, not proofs. `tools/vectors.py` copies the known-answer tests of the repository (hashes, MACs,
  block ciphers, modes, ZUC, curves, RSA, DSA, ECDSA) into `#guard` commands which run the model on the same inputs, with the same order of
  calls, and compare with the outputs the Rust tests expect. A slip in the translation of a table or of a round would make the build fail. No
  theorem depends on these files.

Names: a theorem `Cnn_…_partial` proves the part of property Cnn which is true of the code; `Cnn_…_refuted`,
`Cnn_…_fails` and the like prove, with a concrete witness, that the rest is false of the code.

## Conventions

* `u8`/`u32`/`u64` are `BitVec 8/32/64`. Buffers are `List Byte`. Lengths are `Nat` (allocation limits and
  `usize` overflow of buffer lengths are out of scope, except where a counter in the code is a machine word).
  `usize` has 64 bits where its width matters (PSS, SHA length counters).
* `&mut self` methods return the new state. `Result` is `Except Fault α`; `Fault` is an error kind, `panic`, or
  `diverge` (a loop that does not end, or did not end within the fuel). Error message strings are not modelled. The state after an
  `Err` is not modelled, except in `Model/StreamErr`, `Model/OutBuf`, `Model/RSAObj` and `Model/SigObj`.
* Output parameters (`dst`, `digest`, `cipher`, `msg`, `sign`, `results`) are return values. For the block ciphers and the modes (C78) and for the RSA
  schemes (C80) this is proved faithful. For the rest it is read off the code: every modelled method clears the vector before it writes (`checksum` of
  all hashes).
* A generic `C: Cipher` is the structure `BlockCipher`; theorems about modes assume `Lawful`
  (the cipher is a permutation of its blocks). AES, DES, TDES and SM4 are proved to be lawful instances.
* A generic `D: Digest` is the structure `Digest` of state-changing functions; theorems about HMAC, RSA, DSA and ECDSA assume
  `LawfulDigest` (streaming computes one function of the concatenation). All hashes of the library are proved lawful.
* `rmath` big integers are Lean `Nat`/`Int` (external crate, trusted to be exact integer arithmetic), with `none` for NaN.
  Assumptions about `rmath` that matter: `to_be_bytes` is minimal big-endian of the absolute value; a zero `Nat` has one limb 0; `from_be_bytes` of an
  empty slice is a NaN; `mod_inverse` gives the inverse in `0..n` or NaN.
* Random sources are arbitrary lists or functions: theorems hold for every stream. Loops that wait for a suitable random value
  have fuel; theorems either bound the fuel needed or hold for every fuel.
* Integer overflow: Rust panics in debug builds and wraps in release builds. Where that matters (PSS, P-256) the
  model has a parameter for the build, and the theorems say for which build they hold.
  For the block ciphers, ZUC and the Keccak round constants C109 proves that no check fires: `Model/Checked` has every index, sum, difference and shift as a
  possible panic, and arrays which are filled in place.
* Raw pointers: the in-place arithmetic of P-224 and P-256 is modelled twice, as functions (`Model/P224`, `Model/P256`) and on a memory where an output
  may be the same array as an input (`Model/CurveMem`, `P224Mem`, `P256Mem`); C77 proves that both agree. What remains assumed is that loads and
  stores happen in the order of the source: Rust gives no meaning to a `&mut` and a `&` of the same place. `Cell` scratch buffers elsewhere are
  modelled by their functional effect.

## Plan per property

| id | modelled | proof |
|----|----------|-------|
| C01 | `padding.rs` padding/unpadding as list functions | list lemmas on the reversed scan |
| C02 | same | false: witness `[0x80,0x01]`; partial: what the accepted language is |
| C03 | `counter.rs` as state machine | big-endian increment = +1 mod 256^len, induction on calls |
| C04 | `ecb.rs` one-shot | induction on blocks |
| C05 | `ECBEncrypt` as state machine with pond | invariant: emitted ++ pending vs input prefix |
| C06 | `ECBDecrypt` | false when m has length ≡ bs-1: negation + partial; `_exact` theorems (Props/ModesExact.lean) say what happens for every message of the failing class, here and for C07, C08, C09, C11, C12, C60 |
| C07 | `cbc.rs` one-shot | false for DefaultPadding: negation; partial for whole blocks + EmptyPadding |
| C08 | `CBCEncrypt` | false for residue bs-1; partial elsewhere |
| C09 | `CBCDecrypt` | partial with the same exclusion |
| C10 | `cfb.rs` | induction on segments |
| C11 | same | false: dropped tail and panic witnesses |
| C12 | `CFBEncrypt/Decrypt` | stream invariant; decryption false when output is drawn off early |
| C13 | `ofb.rs` | keystream spec, involution of xor |
| C14 | `ctr.rs` | keystream spec over arbitrary counter |
| C15 | `ctr.rs` + `counter.rs` | false for wide counters; proved for exact width |
| C16 | `des.rs` | Feistel inversion, permutation tables by kernel evaluation |
| C17 | `des.rs` vs FIPS spec | bit-level lemma per table; complementation by xor algebra |
| C18 | `tdes.rs` | from C16 |
| C19 | `sm4.rs` | generalised Feistel inversion; S-box from its algebraic definition |
| C20 | `aes_generic.rs` | via C21 and inversion of spec steps |
| C21 | T-tables vs FIPS-197 | tables by `decide +kernel` over all 256 bytes, linearity of MixColumns |
| C22 | `aes_amd64.rs` with intrinsic semantics | to the same spec |
| C23-C26, C28 | `md5`, `sha`, `sm3` | streaming invariant generic in the compression function + compression = spec |
| C27 | `SHA512T` | false: witnesses; partial: what is computed |
| C29, C30 | same state machines | case analysis; negations for write-after-checksum |
| C31 | `hmac.rs` | over an abstract digest state machine satisfying a streaming law |
| C32 | `cmac.rs` | streaming invariant |
| C33-C37, C62, C63 | `keccak.rs`, `sha3/*` | sponge invariants; bit-level spec; whole-table evaluation of the offsets and round constants |
| C38-C40 | `zuc/*` | keystream prefix invariant; modular arithmetic; negations for EIA3 chunking; the exact answers of the MAC in every history, by an invariant over the keystream position |
| C41, C42, C64, C66 | `rsa.rs` | CRT and Fermat in Mathlib's `ZMod`/`Nat.ModEq`; key generation over an arbitrary random source |
| C43-C48, C65 | `pkcs1.rs`, `oaep.rs`, `pss.rs` | byte-level encodings over the RSA model; exact acceptance sets |
| C49-C51 | `dsa.rs`, `signature.rs` | arithmetic in `ZMod q`, `ZMod p` |
| C52 | `CurveParams` of `elliptic.rs` | refinement of Jacobian coordinates to Mathlib's group of points of a Weierstrass curve, for every prime field |
| C53, C54, C67 | `ecdsa.rs`, `csp_rng.rs`, `key_pair.rs` | group of prime order; the nonce derivation as a stream; exact characterisation of sign and verify |
| C55 | constants of `elliptic.rs` | Pratt-style primality certificates checked by the kernel; order of the base point by kernel evaluation of the proved formulas; number of points from: order n of G, the bound of 2p+1 points, no points of order 2 |
| C56 | limbs of `p224.rs` | limb bounds and value equations by `omega`/`ring`; the inverse by the exponent of Fermat |
| C57 | `CurveP224` | refinement to C52, with the exact set of results the wrong reduction changes |
| C58 | limbs of `p256.rs` | same, Montgomery form, release and debug |
| C68 | `CurveP256` | windowed ladder invariants; the precomputed table by kernel evaluation of all 30 entries |
| C59, C60 | mode constructors and reset/finish | case analysis; negations of C60 for every cipher, IV and block-wide counter |
| C61 | `des.rs` key schedule | PC1 never reads a parity bit: whole table |
| C69 | the enumerations of `sha/sha.rs`, `sha3/sha3.rs` | simulation of histories by those of the concrete type |
| C70 | all digests and MACs | invariant over arbitrary histories: the state keeps its length field |
| C71 | getters of `oaep.rs`, `pkcs1.rs`, `pss.rs` | from C43, C44; false for the automatic PSS salt with 8m+1 bits: negation |
| C72 | block ciphers and modes | every fallible step is total on its reachable arguments; streams by their invariants; false for CFB decryption streams: negation |
| C73 | `decrypt`, `verify` of the public-key schemes | case analysis over every fallible step; false for truncated DSA containers: negation |
| C74 | `CTR` and `OFB` objects over their life | induction over the calls, with the number of blocks started so far; false for clones, streams made from used objects and OFB: negations |
| C75 | decrypting streams of ECB, CBC and CFB after a refused `finish` (`decAfter`) | false: the refused write and the next message together are a stream of the two messages' blocks, so the stream theorems C06 and C09 give what comes out; holds after `reset` |
| C76 | `md5_amd64.rs`, `sha1_amd64.rs`, `sha256_amd64.rs` over a semantics of the intrinsics, transliterated line by line | the registers before each group of four rounds hold the state and schedule of the standard; false for SHA-1: witness |
| C77 | the point operations and methods of `p224.rs` and `p256.rs` as programs on a memory: each function gets addresses, local arrays have a frame, loops store limb by limb | straight-line programs on names: a decidable check of the list of calls says which names must have different addresses, then the run on any memory equals the run on separate registers; invariants for the loops |
| C78 | `encrypt`/`decrypt` of the four ciphers and the five modes with the caller's buffer and the scratch buffers as state (`Model/OutBuf`) | a loop on buffers refines the loop on values for every scratch state; the content after an error is computed for every message of the failing classes: false for unpadding errors and for unpadded incomplete blocks |
| C79 | `permutation` of every width and round count (`Model/Keccak`) | chi, pi and rho are inverted cell by cell; theta by doubling: `R(x,z) + R(x-n,z) + R(x+n,z-n) = 0` for n = 1 gives it for n = 2^l, where the shift in z vanishes; surjectivity by finiteness of the states |
| C80 | `encrypt`, `decrypt`, `sign` and `verify` of `pkcs1.rs`, `oaep.rs` and `pss.rs` as methods that change the object and the caller's buffer statement by statement and stop at an error (`Model/RSAObj`) | a successful run is the run of the models of C43-C49, for every buffer; the content after each early return is computed; two objects that differ in the state of the hash (and, where drawn bits do not matter, of the random source) are related before and after each statement, so that histories drop out by induction |
| C81 | `sign` and `verify` of `dsa.rs` and `ecdsa.rs` with the object and the container after every return (`Model/SigObj`) | each call is shown to be a function of key, random source, container and message hash, apart from the state of the hash objects, which stays good; induction over the calls |
| C82 | streams of the five modes after every return of `finish`, and a client that goes on after errors (`Model/StreamErr`) | the stream invariants of C05–C14 relate the stream to what was written and handed out; each kind of `finish` keeps the relation or fails without changing the stream; induction over the calls |
| C83 | the digests of MD5, SHA-1, SHA-2 and SM3 objects | through C23–C28 the digests are the standards'; Merkle–Damgård: messages of different lengths differ in the last block because the length field is injective, messages of equal length are compared block by block from the end |
| C84 | one-shot decryption of all five modes | every delivered byte is written as a function of the bytes it depends on (from the loop lemmas of C04–C14, unpadding only cuts off at the end); then two decryptions are compared byte by byte |
| C85 | tags of CMAC, HMAC and ZUC MAC objects | through C31, C32 and C40 the tags are the standards'; CMAC: the chain values agree up to the changed block and differ from there on because the cipher is injective; HMAC: case split on the outer inputs; EIA3: linearity of the sum over message bits |
| C86 | `ECDSA::verify` (model of C53) on related containers, messages and keys | `C53_verify_exact` reduces acceptance to the specification; the verification point is `w(z+dr)·G`; two points with the same x coordinate are equal or opposite (Mathlib), and the order of `G` turns that into congruences modulo `n` |
| C87 | Model/IvObj: `cur_iv` and the IV source of the three modes, with the object left behind by a failed call; `DefaultInitialVec` over a random source that may fail at any word. Spec/Iv: IV in use after a list of events | induction over the history; one-shot and stream functions with an IV of the wrong length computed exactly; refuted for CBC decryption, rest `_partial` |
| C88 | objects as in C23-C28; Spec/Extension: what padding appends, and the iteration continued from the final registers | iteration over a concatenation of whole blocks; injectivity of the output of the registers (C83) |
| C89 | DES and TDES as in C16-C18; Spec/WeakKeys: the lists of SP 800-67 | key schedules of the listed keys computed by the kernel; a mirrored schedule exchanges encryption and decryption for every block; parity bits by C61 |
| C90 | what the accepted signatures and ciphertexts of one key have in common | from the exact descriptions of C46, C65 and C45, with injectivity of EMSA-PKCS1-v1_5 and of DigestInfo, and x -> x^e being a permutation modulo n |
| C91 | the blinding step of decrypt by itself, one draw at a time | x -> x^e is a permutation of the residues prime to n; count the preimages |
| C92 | the loop of sign_inner run twice from one state; verify_inner | induction over the attempts, elimination of the secret from two congruences |
| C93 | `rand_field_element`, `generate_key` on a source of given words (`tape`) | sequences of words are numbers below 256^(4k); counting residues |
| C94 | the format strings of `Display`/`Debug` of the key types, over an arbitrary injective text of numbers | cancelling prefixes and splitting at quotes |
| C95 | `Model/Trace`: the scalar multiplications once more in a monad that logs outcomes of `if`s on data, loop counts, table entries and field operations; same results as the other models (`C95_values`). Field operations are single events, rmath conversions are not logged, what the compiler makes of masks is outside | induction over the bits; for P-224 the prefix of the scalar times the point decides the branch |
| C96 | the decryptions of CBC and CFB as an oracle that says accepted or refused; the attacker is a decision tree (`Spec/Oracle`) fixed before the cipher | unpadding succeeds iff the byte 0x80 occurs; a block refused everywhere exists by counting, then one byte is varied at a time |
| C97 | `decrypt_inner` with the texts of its errors (`Model/OAEPText`), `Display` of the error; the attacker is a decision tree (`Spec/Manger`) | unfolding for the texts; for the attack an interval invariant: every answer cuts the interval by a fixed factor, `N` rounds halve it |
| C98 | `PrivateKey::decrypt`, `decrypt_and_check`, both `sign`s on keys with arbitrary components | unfolding: only the final check counts; for `decrypt` the Chinese remaindering with arbitrary exponents, congruences modulo the undamaged prime |
| C99 | the key schedules and block functions of AES, SM4 and DES in a monad that logs table and index of every read at an index that depends on data | the indices of a round determine the state and, with the next round, the round key; the key schedules are run backwards |
| C100 | the five modes over the cipher that is a given permutation of the blocks (`permCipher`); the arguments and values a message and a ciphertext call for (`ecbPairs`, ..., `ctrPairs`) | encryption gives a ciphertext iff the permutation takes these values; a finite partial injection extends to a permutation, and the permutations with given values are counted by those that fix the arguments |
| C101 | nothing new: generator, cipher and MAC of C38-C40; `tagFrom` computes a tag from key stream bytes | the S-boxes, L1, L2 and multiplication by 257 modulo 2^31 - 1 are injective, so every step can be undone; pigeonhole for the period; the IV layouts compared byte by byte |
| C102 | nothing new: `decrypt` of C43; the attack is a program `Ask` that sees only yes or no (`Spec/Bleichenbacher.lean`) | an accepted product lies in [2B, 3B); a factor that maps all well-formed encodings to well-formed ones is 1, from arithmetic progressions of encodings; the interval invariant by induction on the number of questions |
| C103 | `digest_func`, `rand_source` and the hand-written `clone`s (`Model/Handles.lean`) | lawful digests after `reset`; the padding loop as a function of source and length; the identity for two cubes, whose coefficient is a unit because cubing is a bijection modulo each prime; the ZUC invariant of C38 |
| C104 | the hash objects and the four `verify` functions | two chaining values compared by the kernel on the published blocks and lifted to all endings by appending to the iteration; induction over the collisions, with equal lengths and equal chaining values as invariant; pigeonhole; outcomes compared branch by branch |
| C105 | `ECDSA::verify`, `DSA::verify`, `PKCS1::verify` with any public key; `is_on_curve`, `add`, `scalar` | the exact acceptance conditions of C46, C49 and C53 solved for the key instead of the signature; the model run on the point (3, 0); the orders of the curves (C55) and of the subgroup |
| C106 | `sbox`, `non_linear_f`, `from_slice`, `reset`, `encrypt` of ZUC and `encrypt`, `decrypt` of triple DES with a log of the table reads (`Model/ReadsZUC`) | the two S-box arguments of fifteen steps in a row determine every cell of the register, because the cells move down by one and two words of each step use four of them; then the steps are undone (C101); triple DES from C99 three times |
| C107 | `CMAC` beside `ECB`, `CBC`, `CFB`, `OFB`, `CTR` with the same cipher | the exact results of the modes (C04, C07, C10, C13, C14) and of CMAC (C32) put together: CBC chains the masked message as CMAC does; for CTR the permutation is changed at the zero block by a transposition |
| C108 | `OAEP::decrypt` with error texts and `PKCS1::decrypt` beside `PKCS1::sign`, `PKCS1::verify`, `PSS::verify` with the same key | Manger's attack (C97) on a blinded number of the attacker's choice, put together with the exact results of C46 and C65; C102 for the plain answers; multiplication by a unit permutes the residues |
| C109 | the ciphers once more with every index, sum, difference and shift checked, arrays in place (`Model/Checked`) | equality with the unchecked model: table facts by kernel evaluation, ranges by arithmetic, loops and histories by induction |
| C110 | the functions that compute with sizes of the caller once more on 64-bit words, checked or wrapping, and reservations of memory that panic (`Model/Sized`) | equality with the unbounded models where nothing wraps, by case distinction; where the PSS lengths wrap around, the separator index is past the data block, by linear arithmetic |
| C111 | SHAKE objects as an instance of the digest interface of the other models | lawful digest from the invariant of C63; the theorems of C44, C48, C49, C53 applied to it; for lengths that are not whole bytes, the digest that reports its length rounded up is shown to give the same results; for length 0, induction on the rounds of MGF1 |
| C112 | `des.rs` and `tdes.rs` with the byte order as a parameter (`Model/DESOrder`) | little: equal to Model/DES; big: inverse of a Feistel network for any round function; the S-boxes that read the two bytes which are always 0 are constant and cancel over four rounds; the key schedule reads only 48 key bits |
| C113 | the pointer accesses of `aes_amd64.rs` as a log beside the values (`Model/RawMem`), those of the three hash files as a function of the data length; Spec/RawMem: bounds, alignment, permission | the values equal those of Model/AESNI; case analysis on the key length; induction on the number of blocks |
| C114 | `write` and `checksum` of the five hashes and of `ZUCMac` with the width of `usize` and the kind of build as parameters (`Model/LongHash`); Spec/LongHash: the hashes with the length field as an argument | the invariant of C23-C26 with the counter modulo 2^W; the padding depends on the counter only modulo the block size; injectivity of the length field |
| C115 | `write`, `finish` and `reset` of all streams with every way out, over a cipher with a schedule of failures (`Model/Flaky`); Spec/Flaky: rules that remember the message, the served blocks, the calls and the bytes handed out; Spec/FlakyChain: rules for CBC encryption that remember the chaining value; Spec/FlakyEmpty: ECB and CBC encryption without padding | simulation: what the rules remember determines the stream; the block loop serves a prefix; then induction over the history |
| C116 | `encrypt` and `decrypt` of the five modes and the CMAC object with every way out, over a cipher with a schedule of failures (`Model/FlakyOnce`, on top of `Model/OutBuf`); Spec/FlakyOnce: prefix of the output, MAC with lost messages | the block loops serve a prefix; composition of two loops; induction over the attempts; for CMAC an invariant over the history, which `reset` restores |
| C117 | `PublicKey::encrypt` (`Model/RSA`); the statements use remainders, gcd and Mathlib's Jacobi symbol only | fixed points counted in ZMod p by its cyclic unit group and multiplied by the Chinese remainder theorem; multiplicativity of the Jacobi symbol; bounds on integer powers |
| C118 | `Model/CtrEnd`: the object of `ctr.rs` with the state after every error, including the counter after `None`; `Spec/CtrEnd` remembers pending bytes, ready output and the number of counter values used | induction on the block loop and on the history; consequences by invariants of the specification |
| C119 | `Model/OAEP`, `Model/PSS`, `Model/PKCS1` run on a source that replays a sequence of words (`Proof/Tape`) | the first bytes of the words have equally many continuations; for PKCS#1 an involution exchanging the i-th non-zero bytes maps the sequences of one string onto those of another; injectivity of encoding and RSA identifies the string with the ciphertext |
| C120 | `Model/PKCS1`, `Model/OAEP`, `Model/PSS` (`autoGenerateKey`), `Model/RSA` (`generateKey`) | the generated key is a valid key of the length asked for (C42), so that the theorems on round trips apply; no panic by induction on the loops; a concrete source of certified primes shows the refutations |
| C121 | nothing new: OFB of C13 over any lawful cipher, over all permutations of the blocks (`permCipher` of C100), over DES with weak keys (C89). Spec/Period: equal blocks of key stream | iterates of an injective map on a finite set; the number of permutations whose cycle through a given point has length k, by induction on the size of the set, taking the point out of its cycle |
| C122 | nothing new: the models of CMAC, HMAC, OAEP, PSS, DSA and ECDSA | CMAC is a lawful digest, from the invariant of C32; the theorems of C31, C44, C48, C49, C53 applied to it |
| C123 | `Model.Live`: both streams, the bytes on their way and what has been drawn off; any schedule | Invariant: sent off = arrived ++ on the way, either end satisfies the stream invariant; the receiver's step undoes the sender's. |
| C124 | `Model.Live` with schedules that end with the two `finish` calls | induction on the messages over C123; false for CBC without padding, with the exact result |
| C125 | the one-shot functions of the modes, `DefaultCounter` | what a mode remembers of whole blocks, by induction; unpadding looks at the end only |
| C126 | `feed` over the streams of the modes | the stream invariants of C05, C06, C08, C09, C12–C14 and the one-shot equations |
| C127 | `feed` over the decrypting streams | C126 reduces released output to one-shot decryption, C84 does the rest |
| C128 | the one-shot functions and `DefaultPadding::unpadding` | the first blocks of a ciphertext are the ciphertext of the first blocks; false, with the exact result |
| C129 | the one-shot functions and `DefaultPadding::unpadding` | decryption of the longer ciphertext starts with that of the shorter, and unpadding accepts whatever contains 0x80; false, with the exact extent |
| C130 | the decrypting streams of ECB and CBC and the single calls | the stream keeps exactly the last block pending; its result for arbitrary bytes in closed form, compared with the single call |
| C131 | `ECDSA::verify` through its exact description in C53 | solve the equation of verification for u and v; the multiples of the base point with a given x coordinate are two |

## Modelled and not modelled, per file

| file | modelled | not modelled |
|------|----------|--------------|
| `cipher.rs`, `crypto_err.rs` | the traits, the error kinds, `Display` of the errors of OAEP decryption (C97) | the texts of the other errors, `source` |
| `aes/aes.rs`, `aes_generic.rs`, `const_tables.rs` | everything (tables copied by a script), also the order and indices of the table reads (C99) | `Clone` |
| `aes/aes_amd64.rs` | everything, over a semantics of the intrinsics | the 8 bytes read beyond a 24 byte key (115-116) are an arbitrary parameter; bounds and alignment of the accesses are in C113 |
| `des/*` | everything, for both byte orders (`Model/DES` little-endian, `Model/DESOrder` both) | |
| `sm4/*` | everything | |
| `cipher_mode/*` | padding, counter, IV, all five modes, one-shot and streams, `reset`, `set_iv` | `Clone` of ECB and of streams (copies) |
| `cmac`, `hmac` | everything | commented-out code |
| `md5`, `sha1`, `sha256`, `sha512`, `sm3` and the enumerations `SHA`, `SHA3` | everything, the x86 back ends (not compiled, their `mod` lines are commented out) over a semantics of the intrinsics | alignment of `_mm_store_si128`; `sha256_amd64.rs` lacks two declarations, read as `let` |
| `keccak`, `sha3` | everything | |
| `zuc` | everything; `ZUCMac` also with 32-bit words (C114) | |
| `rsa/rsa.rs` | keys, `is_valid`, raw encryption and decryption with CRT and blinding, key generation | prime generation of `rmath` (an oracle), floating point estimate of `generate_multi_prime_key` (an oracle `tooFew`) |
| `rsa/pkcs1.rs`, `oaep.rs`, `pss.rs`, `signature.rs` | everything | `Debug` |
| `dsa/*` | parameter and key generation, sign, verify, container, `Display`, `Debug` | |
| `ecdsa/*`, `elliptic/key_pair.rs` | everything | |
| `elliptic/elliptic.rs` | everything | `Clone` |
| `elliptic/p224.rs`, `p256.rs` | everything | `Clone`; the meaning of aliased references in the compiler (see above, C77) |
| `kdf` | nothing: the file is empty | |
| `build.rs` | nothing: it only selects the AES back end, and C22 proves both equal | |

Side channels are modelled where a property speaks of them: the branches and table reads of scalar multiplication (C95) and the table reads of AES, SM4, ZUC and
DES (C99, C106) are observations that the model records beside the result. What a processor makes of them (cache lines, time per instruction) and the steps inside
`rmath` are out of scope, as are everywhere: memory safety of the `unsafe` blocks other than the x86 code (C113), quality of entropy, tests and benches.

## Defects of the code found by the proofs

Each of these is a theorem (named in `MANIFEST.json`) with a concrete witness.

* Padding: unpadding accepts bytes after the marker (C02), so no addition of whole blocks to an accepted ciphertext is ever refused (C129). ECB and CBC streams mishandle messages of length bs-1 mod bs (C06, C08, C09);
  one-shot CBC does not chain the padded tail (C07); CFB drops the tail with `EmptyPadding` and its decryption stream panics on a partial
  segment (C11) and depends on when output is drawn off (C12); a counter wider than a block repeats key stream (C15); `finish` does not
  reset CBC encryption with `EmptyPadding` nor CTR (C60), so the second message over a CBC connection without padding arrives damaged (C124); the clone of a used CTR object and the stream made from it start the key stream over
  (C74); a decrypting stream returns a message it has refused in front of the next one (C75);
  `decrypt` of ECB, CBC and CFB leaves the decrypted text of a refused ciphertext in the caller's buffer (C78). PSS `sign` overwrites the buffer before it
  finds that there is no private key (C80, no secret involved). CBC decryption goes on after its IV could not be renewed (C87). With
  `DefaultPadding` the acceptance of ciphertexts gives the whole message away (C96). After a call during which the cipher failed the streams have lost data,
  process data twice, pad twice, skip counter blocks or chain to the wrong block (C115); a failed CTR call must not be made again, and CMAC's `checksum` called
  again after a caught panic returns the plain encryption of the last block (C116). `CTR::new` trusts `bits_len()` of the caller's counter: a shorter value
  makes the call panic (C118).
* Hashes: on 32-bit machines the byte counters overflow: MD5 is wrong from 512 MiB on, the others from 4 GiB on, and the ZUC MAC ignores 512 MiB appended to
  a message (C114). SHA-512/t has a wrong length field and a wrong last byte (C27); writing after `checksum` hashes no well-defined message (C30); the disabled SHA-NI
  code of SHA-1 stores a wrong word (C76).
* Keccak: every rate is accepted (C36); negative round indices use wrong constants (C37); `permutation` reads and writes in different bit
  orders (C62).
* ZUC: reported lengths (C38); MAC over several writes, without a write, or computed twice (C40); a cipher and a MAC object with the same parameters and
  direction false share their key stream, so that tags can be made without the key (C101, also so in the standards, which demand separate keys).
* RSA: key generation with three or more primes may repeat one, and `is_valid` accepts such keys (C42); c = n is accepted (C64); the empty
  message cannot be decrypted (C43); OAEP accepts a data block without separator (C45); PKCS#1 verification ignores the length of the
  signature and s ≥ n (C46); the check for supported hashes never fires (C47); PSS verification panics in debug builds and rejects
  genuine signatures for some modulus lengths in release builds (C48), accepts images that are no encodings and signatures ≥ n (C65); the longest PSS salt
  (`Some(0)`) is refused for moduli of 8m+1 bits (C71). The blinding factor 1 is twice as likely as any other (C91); the texts of OAEP errors allow Manger's
  attack (C97); decryption does not check its result, so a damaged CRT value gives the factors of the modulus away (C98); PKCS #1 v1.5 decryption can be
  used for Bleichenbacher's attack (C102, a flaw of the scheme that needs a countermeasure in the caller). `PKCS1::auto_generate_key` compares the number of bits
  with a number of bytes and returns objects that can not sign (C120).
* DSA: verification does not cut the hash to the length of q (C49); `verify` panics on a signature container that was truncated within its first
  number, ECDSA as well (C73).
* ECDSA: `generate_key` can return the secret 0 (C54); secrets for P-521 are drawn with a margin of 55 bits instead of 64 (C93).
* Copies: `rand_source` and `clone` hand out sources, IVs and key stream that the object uses again; with them DSA keys and RSA messages follow (C103, a caller's
  mistake that the interface invites).
* DES on big-endian machines: the branch for that byte order computes another cipher, which lets sixteen bits of every block pass unencrypted and ignores
  eight of the 56 key bits (C112).
* Memory: the constructor of AES with 24-byte keys reads eight bytes beyond the key array; the disabled x86 code of SHA-1 and SHA-256 stores without the
  required alignment, that of MD5 writes through a pointer for reading (C113).
* MD5 and SHA-1 are offered for signatures; the published collisions carry over to every ending, key and scheme (C104).
* Printing: `Display` and `Debug` of private keys print the secret (C94).
* Observable steps: scalar multiplication shows the scalar on P-256 with a point other than the base point and on the generic curves (C95); the table reads of
  the block ciphers show key and block (C99).
* Curves: P-521 carries the metadata of "P-512" (C55); the full reduction of P-224 is wrong for p-1 and some other values, so that
  `CurveP224` returns wrong coordinates for them (C56, C57); P-256 panics in debug builds (C58, C68).

Noted while reading, not claims: the bound stated in the comment of `p256_scalar8` does not follow from its stated precondition (limb 8 has to be
below 2^29); `p256_point_add` is wrong for equal points (proved in C58_point_add_equal) and is never called with them by the scalar
multiplication (proved inside C68); `CurveP224` uses the absolute value mod 2^224 of its coordinates.

## Trusted base

* Lean's kernel (4.33.0) and Mathlib's definitions used in statements: `ZMod`, `Nat.Prime`, `WeierstrassCurve.Affine.Point` with its
  addition, and lists and numbers.
* Axioms: every theorem listed in `MANIFEST.json` depends only on a subset of `propext`, `Classical.choice`, `Quot.sound`. No other axioms,
  no `sorry`, no `native_decide`, no `bv_decide`. The list below is the output of `#print axioms`, grouped.
* Faithfulness of the hand translation (each definition cites its source lines). `Verif/Check` runs the model on the known answers of the
  repository's own tests, also with private keys of RSA, DSA and ECDSA, RSA key generation with given primes, and Chinese remaindering. Where those
  tests take random numbers of the system, the model gets a pseudo-random source. Powers are run by square and multiply: `powMod_eq_run` in `Model/RSA`
  proves that this is the model's `powMod` and tells the compiler so (`@[csimp]`); the kernel and the theorems do not see it.
* `rmath`, `rand` and std behave as documented, see the conventions.
* The semantics of the AES-NI, SSE and SHA-NI intrinsics in `Model/AESNI.lean` and `Model/HashAmd64.lean`, taken from Intel's reference.

## Axioms of each theorem

Output of `#print axioms` for the theorems of `MANIFEST.json`.

* none: C01_empty_padding, C04_ecb_decrypt_rejects, C47_never_fires, C59_iv_error, C60_reset, C72_block, C115_write_panics_refuted.
* `propext`: C02_unpadding_strict_fails, C25_spec_frac, C37_rc_negative_refuted, C41_check, C41_too_big, C50_key, C52_on_curve_equation, C59_cbc_iv, C59_ofb_iv, C59_cfb_iv, C78_ecb_encrypt, C78_ecb_decrypt, C87_results, C87_history, C113_hashes_refuted, C117_common_modulus_refuted, C117_product_refuted.
* `Quot.sound`: C51_panic.
* `Quot.sound`, `propext`: C01_default_padding_roundtrip, C02_unpadding_partial, C03_counter_new, C07_cbc_decrypt_rejects, C10_cfb_new, C19_sm4_keys, C19_sm4_standard, C19_sm4_lawful, C19_sm4_roundtrip, C20_spec_inverse, C20_aes_keys, C29_md5_history, C29_sha1_history, C29_sha256_history, C29_sha224_history, C29_sha512_history, C29_sha384_history, C29_sha512t256_history, C29_sha512t224_history, C29_sm3_history, C31_hmac_history, C31_hmac_set_key, C31_hmac_refused, C32_cmac_refused, C35_pad_injective, C36_rate_refuted, C36_rate_zero_panics, C36_rate_above_width_collides, C37_rc_exact, C37_rc_partial, C38_key_length, C40_spec_z, C44_new, C46_prefix, C48_new, C54_field_element, C56_add, C58_debug_refuted, C59_ctr_new, C59_default_iv, C60_ctr_reset, C60_finish_partial, C60_cbc_finish_partial, C60_cbc_empty_fails, C60_ctr_fails, C70_iterated, C70_shake_set, C70_hmac, C70_zuc, C71_pss_salt, C71_pss_auto_refuted, C71_oaep_new, C71_pkcs1_new, C71_pss_new, C73_dsa_verify_partial, C73_dsa_verify_fails, C76_sha256_backend, C76_sha1_backend_refuted, C78_des, C78_tdes, C78_sm4, C78_aes, C78_cbc_encrypt, C78_cbc_decrypt, C78_cfb_encrypt, C78_cfb_decrypt, C78_ofb, C78_ctr, C78_wrong_length, C85_hmac_key_zeros, C85_hmac_key_hash, C85_hmac_collision, C87_default, C87_default_history, C87_ofb, C87_cfb_encrypt, C87_cfb_decrypt, C87_cbc_encrypt, C87_cbc_decrypt_refuted, C91_only, C99_values, C103_digest_func, C103_zuc_clone, C104_dsa, C109_des, C109_des_rotate, C110_counter_refuted, C110_pss_auto, C110_oaep_digest, C111_hmac, C112_little, C113_aes_values, C113_aes_blocks, C113_aes_new_partial, C113_aes192_refuted, C113_hashes_partial, C114_specification, C114_same_objects, C114_zuc_partial, C114_zuc_refuted, C115_first, C115_no_failures, C115_cbc_spoiled_refuted, C115_reset, C117_small_message_refuted, C118_same_object, C118_list_counter, C118_short_value_refuted, C120_pss_max_salt_refuted, C129_partial.
* `propext`, `Classical.choice`, `Quot.sound`: all others (709).
