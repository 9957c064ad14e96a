{"claims": [
{"property": "C01", "status": "proved", "theorems": ["Verif.Props.C01_default_padding_roundtrip", "Verif.Props.C01_empty_padding"], "note": ""},
{"property": "C02", "status": "partial", "theorems": ["Verif.Props.C02_unpadding_strict_fails", "Verif.Props.C02_unpadding_partial"], "note": "The code accepts any non-zero, non-0x80 bytes between the marker and the end; the strict statement is refuted and the exact accepted language is proved."},
{"property": "C03", "status": "proved", "theorems": ["Verif.Props.C03_counter_new", "Verif.Props.C03_counter_next", "Verif.Props.C03_counter_distinct", "Verif.Props.C03_counter_reset"], "note": "Widths are counted without bound; for widths above 2^64-8 bits the arithmetic of the code overflows, see C110."},
{"property": "C04", "status": "proved", "theorems": ["Verif.Props.C04_ecb_roundtrip_default", "Verif.Props.C04_ecb_roundtrip_empty", "Verif.Props.C04_ecb_empty_rejects", "Verif.Props.C04_ecb_decrypt_rejects"], "note": ""},
{"property": "C05", "status": "proved", "theorems": ["Verif.Props.C05_ecb_stream_encrypt"], "note": ""},
{"property": "C06", "status": "partial", "theorems": ["Verif.Props.C06_ecb_stream_decrypt_fails", "Verif.Props.C06_ecb_stream_decrypt_partial", "Verif.Props.C06_ecb_stream_decrypt_exact"], "note": "Refuted when the message length is bs-1 mod bs (two padding blocks, only the last is unpadded); proved for every other message. C06_ecb_stream_decrypt_exact: every message of the failing class, under every chunking, ends in an unpadding error."},
{"property": "C07", "status": "partial", "theorems": ["Verif.Props.C07_cbc_roundtrip_fails", "Verif.Props.C07_cbc_roundtrip_partial", "Verif.Props.C07_cbc_decrypt_textbook", "Verif.Props.C07_cbc_decrypt_rejects", "Verif.Props.C07_cbc_encrypt_exact", "Verif.Props.C07_cbc_tail_repeats", "Verif.Props.C07_cbc_roundtrip_exact", "Verif.Props.C07_cbc_roundtrip_needs_zeros", "Verif.Props.C07_cbc_roundtrip_iff"], "note": "One-shot CBC does not chain the padded tail, so the DefaultPadding round trip is refuted; EmptyPadding on whole blocks and the textbook decryption are proved. For every message: the exact ciphertext (C07_cbc_encrypt_exact), the tail ciphertext does not depend on IV or earlier blocks (C07_cbc_tail_repeats), the exact result of decrypting it (C07_cbc_roundtrip_exact), and, for messages without the byte 0x80, the round trip works iff the block in front of the tail is zero (C07_cbc_roundtrip_iff)."},
{"property": "C08", "status": "partial", "theorems": ["Verif.Props.C08_cbc_stream_encrypt_fails", "Verif.Props.C08_cbc_stream_encrypt_partial", "Verif.Props.C08_cbc_stream_encrypt_exact", "Verif.Props.C08_cbc_stream_reads_back", "Verif.Props.C08_cbc_stream_reads_back_iff"], "note": "Refuted for residue bs-1 (finish restores the IV between the two padding blocks); proved for every other message and schedule. For every message of the failing class the output is textbook CBC of the message and marker followed by E(IV) (C08_cbc_stream_encrypt_exact); it reads back iff the last regular ciphertext block equals the IV (C08_cbc_stream_reads_back_iff)."},
{"property": "C09", "status": "partial", "theorems": ["Verif.Props.C09_cbc_stream_decrypt_fails", "Verif.Props.C09_cbc_stream_decrypt_partial", "Verif.Props.C09_cbc_stream_decrypt_exact"], "note": "Refuted for residue bs-1; proved for the others. C09_cbc_stream_decrypt_exact: every message of the failing class ends in an unpadding error."},
{"property": "C10", "status": "proved", "theorems": ["Verif.Props.C10_cfb_roundtrip_default", "Verif.Props.C10_cfb_roundtrip_empty", "Verif.Props.C10_cfb_new"], "note": ""},
{"property": "C11", "status": "partial", "theorems": ["Verif.Props.C11_cfb_drops_tail", "Verif.Props.C11_cfb_decrypt_panics", "Verif.Props.C11_cfb_encrypts_all_partial", "Verif.Props.C11_cfb_decrypt_partial", "Verif.Props.C11_cfb_stream_decrypt_partial", "Verif.Props.C11_cfb_encrypt_empty_exact", "Verif.Props.C11_cfb_stream_decrypt_panics_exact"], "note": "Refuted: EmptyPadding drops the tail, stream decryption panics on a partial segment. Proved: the cases without a tail. C11_cfb_encrypt_empty_exact and C11_cfb_stream_decrypt_panics_exact say for every input exactly what is dropped and when the stream panics."},
{"property": "C12", "status": "partial", "theorems": ["Verif.Props.C12_cfb_stream_encrypt", "Verif.Props.C12_cfb_stream_decrypt_fails", "Verif.Props.C12_cfb_stream_decrypt_partial", "Verif.Props.C12_cfb_stream_decrypt_exact", "Verif.Props.C12_cfb_stream_draw_refused"], "note": "Encryption proved; decryption refuted when output is drawn off before finish; proved without early draw-off. C12_cfb_stream_decrypt_exact says what every draw-off schedule yields: only the bytes not yet drawn off are unpadded."},
{"property": "C13", "status": "proved", "theorems": ["Verif.Props.C13_ofb_roundtrip", "Verif.Props.C13_ofb_stream"], "note": ""},
{"property": "C14", "status": "proved", "theorems": ["Verif.Props.C14_ctr_roundtrip", "Verif.Props.C14_ctr_stream", "Verif.Props.C14_default_counter"], "note": ""},
{"property": "C15", "status": "partial", "theorems": ["Verif.Props.C15_ctr_no_reuse_fails", "Verif.Props.C15_ctr_no_reuse_partial", "Verif.Props.C15_ctr_reuse_exact"], "note": "Refuted for counters wider than a block; proved for counters exactly one block wide. C15_ctr_reuse_exact says for every accepted counter, of any width, which blocks share their keystream block."},
{"property": "C16", "status": "proved", "theorems": ["Verif.Props.C16_des_lawful", "Verif.Props.C16_des_roundtrip"], "note": "For every key and block; C16_des_lawful makes all mode theorems apply to DES."},
{"property": "C17", "status": "proved", "theorems": ["Verif.Props.C17_des_fips46", "Verif.Props.C17_des_complement"], "note": "Bit-level FIPS 46-3 specification; complementation proved through it."},
{"property": "C18", "status": "proved", "theorems": ["Verif.Props.C18_tdes_standard", "Verif.Props.C18_tdes_lawful", "Verif.Props.C18_tdes_roundtrip", "Verif.Props.C18_tdes_equal_keys"], "note": "E(K3,D(K2,E(K1,b))); with equal keys the cipher object equals DES on all inputs."},
{"property": "C19", "status": "proved", "theorems": ["Verif.Props.C19_sm4_keys", "Verif.Props.C19_sm4_standard", "Verif.Props.C19_sm4_lawful", "Verif.Props.C19_sm4_roundtrip"], "note": "S-box specified algebraically, CK by its formula."},
{"property": "C20", "status": "proved", "theorems": ["Verif.Props.C20_spec_inverse", "Verif.Props.C20_aes_keys", "Verif.Props.C20_aes_lawful", "Verif.Props.C20_aes_roundtrip"], "note": "For every key length and block; C20_aes_lawful makes all mode theorems apply to AES."},
{"property": "C21", "status": "proved", "theorems": ["Verif.Props.C21_aes_fips197"], "note": "Table-driven code equals FIPS-197 written over GF(2^8)."},
{"property": "C22", "status": "proved", "theorems": ["Verif.Props.C22_aesni_fips197", "Verif.Props.C22_aesni_eq_generic"], "note": "Intrinsics have the meaning of Intel's manual; the 8 bytes read beyond a 24 byte key are an arbitrary parameter and proved irrelevant."},
{"property": "C23", "status": "proved", "theorems": ["Verif.Props.C23_md5_standard"], "note": "Every message and chunking; messages below 2^64 bytes."},
{"property": "C24", "status": "proved", "theorems": ["Verif.Props.C24_sha1_standard"], "note": "Every message and chunking; messages below 2^64 bytes."},
{"property": "C25", "status": "proved", "theorems": ["Verif.Props.C25_sha256_standard", "Verif.Props.C25_sha224_standard", "Verif.Props.C25_spec_frac"], "note": "Constants specified as fractional parts of roots of primes (C25_spec_frac, primes_spec)."},
{"property": "C26", "status": "proved", "theorems": ["Verif.Props.C26_sha512_standard", "Verif.Props.C26_sha384_standard", "Verif.Props.C26_sha512t256_standard", "Verif.Props.C26_sha512t224_standard"], "note": "SHA-512, SHA-384, SHA-512/256 and SHA-512/224 (IVs by the generation function of FIPS 180-4 5.3.6)."},
{"property": "C27", "status": "partial", "theorems": ["Verif.Props.C27_sha512t_new", "Verif.Props.C27_sha512t_refuted", "Verif.Props.C27_last_byte_refuted", "Verif.Props.C27_sha512t_partial"], "note": "False of the code: length field off by 1024 bits (C27_sha512t_refuted), last partial byte wrongly shifted (C27_last_byte_refuted). Proved: IV, output length, exact description of the digest."},
{"property": "C28", "status": "proved", "theorems": ["Verif.Props.C28_sm3_standard"], "note": "Every message and chunking."},
{"property": "C29", "status": "proved", "theorems": ["Verif.Props.C29_md5_history", "Verif.Props.C29_md5_digests", "Verif.Props.C29_sha1_history", "Verif.Props.C29_sha1_digests", "Verif.Props.C29_sha256_history", "Verif.Props.C29_sha256_digests", "Verif.Props.C29_sha224_history", "Verif.Props.C29_sha224_digests", "Verif.Props.C29_sha512_history", "Verif.Props.C29_sha512_digests", "Verif.Props.C29_sha384_history", "Verif.Props.C29_sha384_digests", "Verif.Props.C29_sha512t256_history", "Verif.Props.C29_sha512t256_digests", "Verif.Props.C29_sha512t224_history", "Verif.Props.C29_sha512t224_digests", "Verif.Props.C29_sm3_history", "Verif.Props.C29_sm3_digests", "Verif.Props.C29_sha512t_history"], "note": "MD5, SHA-1, SHA-2, SM3 and SHA-512/t here; SHA-3 in C33/C34 theorems."},
{"property": "C30", "status": "partial", "theorems": ["Verif.Props.C30_md5_refuted", "Verif.Props.C30_sha1_refuted", "Verif.Props.C30_sha256_refuted", "Verif.Props.C30_sha224_refuted", "Verif.Props.C30_sha512_refuted", "Verif.Props.C30_sha384_refuted", "Verif.Props.C30_sha512t256_refuted", "Verif.Props.C30_sha512t224_refuted", "Verif.Props.C30_sm3_refuted", "Verif.Props.C30_md5_partial", "Verif.Props.C30_sha1_partial", "Verif.Props.C30_sm3_partial", "Verif.Props.C30_sha256_partial", "Verif.Props.C30_sha224_partial", "Verif.Props.C30_sha512_partial", "Verif.Props.C30_sha384_partial", "Verif.Props.C30_sha512t256_partial", "Verif.Props.C30_sha512t224_partial"], "note": "False of the code for every MD-style hash (C30_*_refuted); the exact digest returned is characterised in C30_*_partial."},
{"property": "C31", "status": "proved", "theorems": ["Verif.Props.C31_hmac_history", "Verif.Props.C31_hmac_set_key", "Verif.Props.C31_hmac_refused", "Verif.Props.C31_hmac_md5", "Verif.Props.C31_hmac_sha1", "Verif.Props.C31_hmac_sha256", "Verif.Props.C31_hmac_sha224", "Verif.Props.C31_hmac_sha512", "Verif.Props.C31_hmac_sha384", "Verif.Props.C31_hmac_sha512t256", "Verif.Props.C31_hmac_sha512t224", "Verif.Props.C31_hmac_sm3", "Verif.Props.C31_hmac_sha3"], "note": "Generic over every lawful hash, all histories, plus instances for MD5, SHA-1, SHA-2, SM3."},
{"property": "C32", "status": "proved", "theorems": ["Verif.Props.C32_cmac_history", "Verif.Props.C32_cmac_other_sizes", "Verif.Props.C32_cmac_refused", "Verif.Props.C32_cmac_aes", "Verif.Props.C32_cmac_sm4", "Verif.Props.C32_cmac_des", "Verif.Props.C32_cmac_tdes"], "note": "Generic over every lawful cipher, all histories; instances for AES, SM4, DES, triple DES. Block sizes outside SP 800-38B use the code's own table of constants."},
{"property": "C33", "status": "proved", "theorems": ["Verif.Props.C33_sha3_history", "Verif.Props.C33_sha3_chunks"], "note": "All histories including write_bit."},
{"property": "C34", "status": "proved", "theorems": ["Verif.Props.C34_shake_prefix", "Verif.Props.C34_shake_prefix_bytes"], "note": ""},
{"property": "C35", "status": "proved", "theorems": ["Verif.Props.C35_pad_aligned", "Verif.Props.C35_pad_injective"], "note": ""},
{"property": "C36", "status": "partial", "theorems": ["Verif.Props.C36_rate_refuted", "Verif.Props.C36_rate_zero_panics", "Verif.Props.C36_rate_above_width_collides", "Verif.Props.C36_sponge_partial"], "note": "Refuted: every rate is accepted; rate 0 panics later and rates above the width ignore message bits. Proved: for 0 < rate <= width the sponge is FIPS 202."},
{"property": "C37", "status": "partial", "theorems": ["Verif.Props.C37_rc_exact", "Verif.Props.C37_keccak_p_exact", "Verif.Props.C37_steps_partial", "Verif.Props.C37_keccak_p_partial", "Verif.Props.C37_rc_partial", "Verif.Props.C37_rc_negative_refuted", "Verif.Props.C37_negative_round_refuted"], "note": "Proved for nr <= 12+2l (round indices >= 0), every width and state; refuted for negative round indices (more rounds). C37_rc_exact and C37_keccak_p_exact say for every number of rounds below 2^29 what is computed: the round constants of negative indices t are those of -1-t."},
{"property": "C38", "status": "partial", "theorems": ["Verif.Props.C38_outputs", "Verif.Props.C38_key_length", "Verif.Props.C38_roundtrip", "Verif.Props.C38_count_refuted", "Verif.Props.C38_count_partial"], "note": "Outputs proved for every history; the reported length is refuted (Ok(0) when served from leftover keystream) and described exactly."},
{"property": "C39", "status": "proved", "theorems": ["Verif.Props.C39_add", "Verif.Props.C39_keystream", "Verif.Props.C39_sbox"], "note": "Keystream equals GM/T 0001 for every key, IV and number of steps; S-boxes specified by construction."},
{"property": "C40", "status": "partial", "theorems": ["Verif.Props.C40_spec_z", "Verif.Props.C40_mac_partial", "Verif.Props.C40_chunks_refuted", "Verif.Props.C40_no_write_refuted", "Verif.Props.C40_repeat_refuted", "Verif.Props.C40_exact", "Verif.Props.C40_two_writes"], "note": "Refuted: chunked writes, repeated checksum, checksum without write. Proved: one write after construction or reset in any history gives the tag of 128-EIA3. C40_exact says, for every key and every history of write, checksum and reset, which values are returned."},
{"property": "C41", "status": "proved", "theorems": ["Verif.Props.C41_decrypt_is_rsadp", "Verif.Props.C41_no_other_outcome", "Verif.Props.C41_decrypt_encrypt", "Verif.Props.C41_encrypt_decrypt", "Verif.Props.C41_check", "Verif.Props.C41_too_big"], "note": "For every valid key, any number of primes, plain or CRT form, with or without blinding, any random source."},
{"property": "C42", "status": "partial", "theorems": ["Verif.Props.C42_generated_partial", "Verif.Props.C42_valid_of_distinct", "Verif.Props.C42_two_primes", "Verif.Props.C42_repeated_panics", "Verif.Props.C42_refuted"], "note": "Refuted: dedup only removes neighbours, so a key of three primes can repeat one; is_valid accepts it and every decryption panics. Proved: everything else, and full validity for two primes."},
{"property": "C43", "status": "partial", "theorems": ["Verif.Props.C43_roundtrip_partial", "Verif.Props.C43_encrypt_terminates", "Verif.Props.C43_encrypt_format", "Verif.Props.C43_too_long", "Verif.Props.C43_empty_refuted", "Verif.Props.C43_decrypt_exact", "Verif.Props.C43_decrypt_length", "Verif.Props.C43_demo"], "note": "Refuted for the empty message (encrypt returns an empty ciphertext that decrypt rejects). Proved for 1..k-11 bytes, with termination and the exact set of accepted encodings."},
{"property": "C44", "status": "proved", "theorems": ["Verif.Props.C44_set_label", "Verif.Props.C44_set_label_other", "Verif.Props.C44_encrypt", "Verif.Props.C44_roundtrip", "Verif.Props.C44_too_long", "Verif.Props.C44_new", "Verif.Props.C44_other_label"], "note": "Round trip, rejection of long messages, rejection of other labels, for every hash object that satisfies LawfulDigest (all modelled hashes do). After set_label two objects understand each other under the new label, and ciphertexts for labels with another hash are refused (C44_set_label, C44_set_label_other)."},
{"property": "C45", "status": "partial", "theorems": ["Verif.Props.C45_exact_partial", "Verif.Props.C45_no_separator", "Verif.Props.C45_refuted"], "note": "Refuted: an all-zero data block without separator decrypts to the empty message. Proved: exactly which data blocks are accepted."},
{"property": "C46", "status": "partial", "theorems": ["Verif.Props.C46_prefix", "Verif.Props.C46_sign", "Verif.Props.C46_verify_partial", "Verif.Props.C46_genuine", "Verif.Props.C46_range", "Verif.Props.C46_short", "Verif.Props.C46_demo", "Verif.Props.C46_leading_zero", "Verif.Props.C46_length_refuted"], "note": "Genuine signatures are accepted; acceptance is equivalent to the public-key image being the encoding. Refuted: the length of the signature and s < n are not checked."},
{"property": "C47", "status": "partial", "theorems": ["Verif.Props.C47_refuted", "Verif.Props.C47_never_fires", "Verif.Props.C47_no_panic_partial"], "note": "Refuted: the check never fires; sign and verify panic for hashes without prefix. Proved: no panic for the six supported hashes."},
{"property": "C48", "status": "partial", "theorems": ["Verif.Props.C48_new", "Verif.Props.C48_sign", "Verif.Props.C48_release_partial", "Verif.Props.C48_release_512", "Verif.Props.C48_debug_refuted", "Verif.Props.C48_demo", "Verif.Props.C48_bytes_refuted", "Verif.Props.C48_mask_refuted", "Verif.Props.C48_release"], "note": "Refuted: with overflow checks every genuine signature makes verify panic (C48_debug_refuted); without them genuine signatures are rejected when n_bits % 8 = 1 (C48_bytes_refuted) or when the mask of verify clears too little (C48_mask_refuted). Proved: sign conforms to RFC 8017 in every build, and release builds accept every signature made for suitable modulus lengths, among them all multiples of 512 bits. C48_release says for every valid key which of its own signatures a release build accepts. Salt lengths near 2^64: C110."},
{"property": "C49", "status": "partial", "theorems": ["Verif.Props.C49_sign", "Verif.Props.C49_sign_total", "Verif.Props.C49_sign_ok", "Verif.Props.C49_verify", "Verif.Props.C49_verify_exact_partial", "Verif.Props.C49_genuine_partial", "Verif.Props.C49_demo", "Verif.Props.C49_refuted"], "note": "sign always satisfies the FIPS 186-4 equations (hash cut to the length of q); verify uses the number of the whole hash. Proved: verify decides the FIPS check and accepts every genuine signature when the hash is not longer than q. Refuted otherwise: SHA-256 with a 160-bit q (C49_refuted)."},
{"property": "C50", "status": "proved", "theorems": ["Verif.Props.C50_range", "Verif.Props.C50_parameters", "Verif.Props.C50_generator", "Verif.Props.C50_key", "Verif.Props.C50_new", "Verif.Props.C50_divides", "Verif.Props.C50_uncheck"], "note": "Assumes the prime test and prime generator of rmath are sound (SoundTest, SoundPrimes); q | p-1 needs no assumption. Includes termination of the search for g."},
{"property": "C51", "status": "proved", "theorems": ["Verif.Props.C51_roundtrip", "Verif.Props.C51_injective", "Verif.Props.C51_panic"], "note": "For positive r and s, the only ones sign produces; the byte form of zero is rmath's."},
{"property": "C52", "status": "proved", "theorems": ["Verif.Props.C52_add", "Verif.Props.C52_double", "Verif.Props.C52_scalar", "Verif.Props.C52_scalar_base_point", "Verif.Props.C52_on_curve", "Verif.Props.C52_on_curve_equation", "Verif.Props.C52_unique", "Verif.Props.C52_infinity", "Verif.Props.C52_nan"], "note": "add, double, scalar, scalar_base_point of CurveParams against Mathlib's group of points of the Weierstrass curve, for every prime field, curve, point and scalar; unreduced coordinates included."},
{"property": "C53", "status": "proved", "theorems": ["Verif.Props.C53_new", "Verif.Props.C53_sign", "Verif.Props.C53_verify_exact", "Verif.Props.C53_verify_nan", "Verif.Props.C53_genuine", "Verif.Props.C53_public", "Verif.Props.C53_named", "Verif.Props.C53_demo"], "note": "sign conformance, exact verification, acceptance of genuine signatures for every curve object whose base point multiples agree with the generic code, every lawful hash, key, message and random source; closed end-to-end theorem for P-224, P-256, P-384, P-521 as generic curves; concrete signature in C53_demo. Hash outputs must not be empty."},
{"property": "C54", "status": "partial", "theorems": ["Verif.Props.C54_field_element", "Verif.Props.C54_field_element_onto", "Verif.Props.C54_auto_generate_key", "Verif.Props.C54_generate_key_partial", "Verif.Props.C54_zero_refuted"], "note": "Proved for rand_field_element (onto 1..n-1) and auto_generate_key. C54_generate_key_partial gives 0 <= d < n and the matching point for generate_key; C54_zero_refuted shows that d = 0 is reached."},
{"property": "C55", "status": "partial", "theorems": ["Verif.Props.C55_order_p224", "Verif.Props.C55_order_p256", "Verif.Props.C55_order_p384", "Verif.Props.C55_order_p521", "Verif.Props.C55_scalar_mod", "Verif.Props.C55_p224", "Verif.Props.C55_p256", "Verif.Props.C55_p384", "Verif.Props.C55_p521", "Verif.Props.C55_metadata_partial", "Verif.Props.C55_metadata_refuted"], "note": "Base points on the curves, primality of the fields and orders (certificates checked by the kernel), exact order n, and exactly n points, for all four curves. The metadata claim fails for P-521: bit size 512 and name P-512."},
{"property": "C56", "status": "partial", "theorems": ["Verif.Props.C56_mul", "Verif.Props.C56_square", "Verif.Props.C56_add", "Verif.Props.C56_sub", "Verif.Props.C56_reduce", "Verif.Props.C56_invert", "Verif.Props.C56_is_zero", "Verif.Props.C56_from_bigint", "Verif.Props.C56_contract_exact", "Verif.Props.C56_contract_partial", "Verif.Props.C56_contract_refuted"], "note": "Every operation is proved on all limb vectors within the documented bounds, except the full reduction, which is wrong for p-1 and for residues below 2^96-1 whose low 28 bits are all ones when they have to be reduced (C56_contract_refuted); C56_contract_exact says exactly when it is right."},
{"property": "C57", "status": "partial", "theorems": ["Verif.Props.C57_add_exact", "Verif.Props.C57_double_exact", "Verif.Props.C57_scalar_exact", "Verif.Props.C57_scalar_base_point_exact", "Verif.Props.C57_on_curve", "Verif.Props.C57_nan", "Verif.Props.C57_agree_partial", "Verif.Props.C57_refuted", "Verif.Props.C57_base_ok_iff", "Verif.Props.C57_ecdsa_partial"], "note": "is_on_curve agrees for all coordinates below 2^224. The other methods return the generic result with unlucky coordinates changed (C57_*_exact), so they agree exactly for lucky results (C57_agree_partial) and the claim as such is false (C57_refuted)."},
{"property": "C58", "status": "partial", "theorems": ["Verif.Props.C58_stands", "Verif.Props.C58_field", "Verif.Props.C58_mul", "Verif.Props.C58_convert", "Verif.Props.C58_point_double", "Verif.Props.C58_point_add", "Verif.Props.C58_point_add_mixed", "Verif.Props.C58_point_add_equal", "Verif.Props.C58_debug_refuted"], "note": "All limb operations, conversions and point formulas for all limbs within the bounds, in a release build. In a debug build the limbs of zero cannot be squared (C58_debug_refuted): x - 1 overflows."},
{"property": "C59", "status": "proved", "theorems": ["Verif.Props.C59_cbc_iv", "Verif.Props.C59_ofb_iv", "Verif.Props.C59_cfb_iv", "Verif.Props.C59_iv_error", "Verif.Props.C59_cfb_new_empty", "Verif.Props.C59_cfb_new_default", "Verif.Props.C59_ctr_new", "Verif.Props.C59_default_iv"], "note": ""},
{"property": "C60", "status": "partial", "theorems": ["Verif.Props.C60_reset", "Verif.Props.C60_ctr_reset", "Verif.Props.C60_finish_partial", "Verif.Props.C60_cbc_finish_partial", "Verif.Props.C60_cbc_empty_fails", "Verif.Props.C60_ctr_fails", "Verif.Props.C60_cbc_empty_exact", "Verif.Props.C60_cbc_empty_refuted", "Verif.Props.C60_ctr_exact", "Verif.Props.C60_ctr_refuted"], "note": "reset() proved for all streams; finish() refuted for CBC encryption with EmptyPadding and for CTR, proved for the others. C60_cbc_empty_refuted and C60_ctr_refuted hold for every cipher and IV; C60_cbc_empty_exact and C60_ctr_exact say what the next message is chained to."},
{"property": "C61", "status": "proved", "theorems": ["Verif.Props.C61_des_parity"], "note": ""},
{"property": "C62", "status": "partial", "theorems": ["Verif.Props.C62_permutation_bit_order_refuted", "Verif.Props.C62_permutation_reversed_partial"], "note": "Refuted: the input is read in reverse bit order, the output is written in FIPS order. Proved: the exact relation."},
{"property": "C63", "status": "proved", "theorems": ["Verif.Props.C63_shake_history", "Verif.Props.C63_raw_shake_history"], "note": ""},
{"property": "C64", "status": "partial", "theorems": ["Verif.Props.C64_range_refuted", "Verif.Props.C64_range_partial"], "note": "Refuted: c = n is accepted. Proved: exactly c <= n is accepted."},
{"property": "C65", "status": "partial", "theorems": ["Verif.Props.C65_exact_partial", "Verif.Props.C65_range", "Verif.Props.C65_mask_refuted", "Verif.Props.C65_range_refuted", "Verif.Props.C65_standard", "Verif.Props.C65_lengths", "Verif.Props.C65_release", "Verif.Props.C65_debug_refuted"], "note": "C65_release says for every modulus length what a release build accepts; C65_lengths says for which lengths that is the standard (among them all multiples of 512 bits), where C65_exact_partial gives the equivalence with EMSA-PSS encodings. Refuted: other lengths accept images that are no encoding (C65_mask_refuted); signatures not below n are accepted (C65_range_refuted); builds with overflow checks accept nothing (C65_debug_refuted)."},
{"property": "C66", "status": "proved", "theorems": ["Verif.Props.C66_uncheck", "Verif.Props.C66_from_nat", "Verif.Props.C66_from_bytes", "Verif.Props.C66_is_valid"], "note": "Empty byte strings, which rmath reads as NaN, are not modelled. from_bigint_uncheck: C66_uncheck."},
{"property": "C67", "status": "proved", "theorems": ["Verif.Props.C67_sign_at", "Verif.Props.C67_sign"], "note": "Exact characterisation of sign: first attempt of the specified key stream that gives a signature, or still running when the fuel of the model is used up."},
{"property": "C68", "status": "partial", "theorems": ["Verif.Props.C68_scalar", "Verif.Props.C68_scalar_base_point", "Verif.Props.C68_scalar_agrees", "Verif.Props.C68_scalar_base_point_agrees", "Verif.Props.C68_other_methods", "Verif.Props.C68_debug_refuted", "Verif.Props.C68_base_ok", "Verif.Props.C68_ecdsa"], "note": "Proved for all points and scalars in a release build, with the precomputed table and the window table. In a debug build every multiplication panics (C68_debug_refuted)."},
{"property": "C69", "status": "proved", "theorems": ["Verif.Props.C69_sha_history", "Verif.Props.C69_sha_forward", "Verif.Props.C69_sha512t", "Verif.Props.C69_sha3_history"], "note": "The forwarding theorem holds for undisciplined histories too; the history theorems give the standard's digests."},
{"property": "C70", "status": "proved", "theorems": ["Verif.Props.C70_iterated", "Verif.Props.C70_sha512t", "Verif.Props.C70_sha3", "Verif.Props.C70_shake", "Verif.Props.C70_shake_set", "Verif.Props.C70_hmac", "Verif.Props.C70_cmac", "Verif.Props.C70_zuc", "Verif.Props.C70_sha_facade"], "note": "No discipline is assumed for the iterated hashes, SHA-512/t, SHA-3, SHAKE, CMAC and the ZUC MAC. HMAC is generic in a lawful hash."},
{"property": "C71", "status": "partial", "theorems": ["Verif.Props.C71_pss_sign", "Verif.Props.C71_oaep", "Verif.Props.C71_pkcs1", "Verif.Props.C71_pkcs1_sign", "Verif.Props.C71_pss_salt", "Verif.Props.C71_pss_auto_refuted", "Verif.Props.C71_oaep_new", "Verif.Props.C71_pkcs1_new", "Verif.Props.C71_pss_new"], "note": "OAEP and PKCS#1 (when the random source yields enough non-zero bytes) hold as stated, and salt_len is as asked. The choice Some(0) is refused for moduli of 8m+1 bits although a salt fits (C71_pss_auto_refuted). Salt lengths near 2^64: C110. sign_max_message_len of PKCS#1 and max_message_len of PSS: every message up to the limit is signed, and no message is longer (C71_pkcs1_sign, C71_pss_sign). Which keys the constructors take: C71_oaep_new, C71_pkcs1_new, C71_pss_new."},
{"property": "C72", "status": "partial", "theorems": ["Verif.Props.C72_ecb", "Verif.Props.C72_ecb_streams", "Verif.Props.C72_cbc", "Verif.Props.C72_cbc_streams", "Verif.Props.C72_cfb", "Verif.Props.C72_cfb_stream_encrypt_partial", "Verif.Props.C72_cfb_stream_decrypt_fails", "Verif.Props.C72_ofb", "Verif.Props.C72_ctr", "Verif.Props.C72_block"], "note": "Holds for every cipher and mode, one-shot and streamed, except CFB decryption streams with segments of two bytes or more, which panic on some inputs (C72_cfb_stream_decrypt_fails). CTR is for the library's DefaultCounter."},
{"property": "C73", "status": "partial", "theorems": ["Verif.Props.C73_pkcs1_decrypt", "Verif.Props.C73_oaep_decrypt", "Verif.Props.C73_pkcs1_verify", "Verif.Props.C73_pss_verify_partial", "Verif.Props.C73_dsa_verify_partial", "Verif.Props.C73_dsa_verify_fails", "Verif.Props.C73_ecdsa_verify_partial", "Verif.Props.C73_ecdsa_verify_fails"], "note": "RSA decryption (blinding: if the random source yields an invertible number) and PKCS#1 v1.5 verification hold as stated. PSS: release builds only (debug builds panic on genuine signatures, C48_debug_refuted). DSA and ECDSA: all signatures that keep at least the bytes of r; truncating the container through AsMut makes verify panic (C73_dsa_verify_fails, C73_ecdsa_verify_fails)."},
{"property": "C74", "status": "partial", "theorems": ["Verif.Props.C74_ctr_calls", "Verif.Props.C74_ctr_clone_refuted", "Verif.Props.C74_ctr_into_stream_refuted", "Verif.Props.C74_ofb_refuted"], "note": "Holds for every sequence of calls on one CTR object with a counter one block wide (wider ones: C15). False for the clone of a used CTR object, for a stream made from a used CTR object (both start over) and for OFB unless a new IV is set between messages; these refutations hold for every cipher and message."},
{"property": "C75", "status": "partial", "theorems": ["Verif.Props.C75_ecb_refuted", "Verif.Props.C75_cbc_refuted", "Verif.Props.C75_reset_partial", "Verif.Props.C75_cbc_reset_partial", "Verif.Props.C75_cfb_refuted"], "note": "False of the code: for every cipher, a block refused by finish of an ECB or CBC decrypting stream is returned in front of the next message (and damages its first block in CBC); in CFB, for every cipher and segment size, the next draw hands out the refused plaintext. Holds if the caller resets the stream after the refusal."},
{"property": "C76", "status": "partial", "theorems": ["Verif.Props.C76_md5_backend", "Verif.Props.C76_sha256_backend", "Verif.Props.C76_sha1_backend_partial", "Verif.Props.C76_sha1_backend_refuted"], "note": "Proved for MD5 and SHA-256 for all blocks. False for SHA-1: the variable e0 is shadowed inside the closure, so the stored fifth word is wrong (witness: the block of \"abc\"); the first four words of a single block are right. These files are not compiled at this commit."},
{"property": "C77", "status": "proved", "theorems": ["Verif.Props.C77_p224_double", "Verif.Props.C77_p224_add", "Verif.Props.C77_p256_double", "Verif.Props.C77_p256_add", "Verif.Props.C77_p256_add_mixed", "Verif.Props.C77_p224_methods", "Verif.Props.C77_p224_exact", "Verif.Props.C77_p256_methods", "Verif.Props.C77_p256_scalar", "Verif.Props.C77_p256_scalar_base_point"], "note": "Memory model with explicit addresses, refinement to the functional model and through it to the group law. Loads and stores happen in source order; that the Rust code makes aliasing references at all is outside the model."},
{"property": "C78", "status": "partial", "theorems": ["Verif.Props.C78_des", "Verif.Props.C78_tdes", "Verif.Props.C78_sm4", "Verif.Props.C78_aes", "Verif.Props.C78_ecb_encrypt", "Verif.Props.C78_ecb_decrypt", "Verif.Props.C78_cbc_encrypt", "Verif.Props.C78_cbc_decrypt", "Verif.Props.C78_cfb_encrypt", "Verif.Props.C78_cfb_decrypt", "Verif.Props.C78_ofb", "Verif.Props.C78_ctr", "Verif.Props.C78_wrong_length", "Verif.Props.C78_ecb_refuted", "Verif.Props.C78_cbc_refuted", "Verif.Props.C78_cfb_refuted", "Verif.Props.C78_ecb_encrypt_refuted", "Verif.Props.C78_cbc_encrypt_refuted"], "note": "The first half holds for the four ciphers and the five modes. The second half holds for the ciphers and for ciphertexts of a wrong length; it is false of the modes: decrypt of ECB, CBC and CFB reports an unpadding error with the whole decrypted text in the buffer, and ECB and CBC encryption without padding refuses an incomplete last block with the ciphertext of the whole blocks in the buffer, for every cipher and message of the class."},
{"property": "C79", "status": "proved", "theorems": ["Verif.Props.C79_injective", "Verif.Props.C79_surjective", "Verif.Props.C79_bijective", "Verif.Props.C79_short"], "note": "All widths and all round counts, including those for which C37 fails: the wrong round constants give another permutation, but still a permutation."},
{"property": "C80", "status": "proved", "theorems": ["Verif.Props.C80_pkcs1_decrypt", "Verif.Props.C80_oaep_decrypt", "Verif.Props.C80_pkcs1_encrypt", "Verif.Props.C80_oaep_encrypt", "Verif.Props.C80_pkcs1_sign", "Verif.Props.C80_pss_sign", "Verif.Props.C80_pss_public", "Verif.Props.C80_pkcs1_history", "Verif.Props.C80_pkcs1_stable", "Verif.Props.C80_oaep_history", "Verif.Props.C80_oaep_stable", "Verif.Props.C80_pss_history", "Verif.Props.C80_verify"], "note": "PSS sign: for salts that fit the modulus (else C48/C49 apply). A refused PSS signature (also with a public key only, C80_pss_public) has already overwritten the buffer by the encoding; no secret, but not the old content. Histories: hashed messages shorter than 2^64 bytes."},
{"property": "C81", "status": "proved", "theorems": ["Verif.Props.C81_dsa_sign", "Verif.Props.C81_ecdsa_sign", "Verif.Props.C81_verify", "Verif.Props.C81_dsa_history", "Verif.Props.C81_ecdsa_history"], "note": "Messages shorter than 2^64 bytes; for ECDSA also the bytes of the secret together with entropy and message hash (SecretFits)."},
{"property": "C82", "status": "proved", "theorems": ["Verif.Props.C82_ecb_encrypt", "Verif.Props.C82_cbc_encrypt", "Verif.Props.C82_ecb_decrypt", "Verif.Props.C82_cbc_decrypt", "Verif.Props.C82_cfb_decrypt", "Verif.Props.C82_cfb_encrypt", "Verif.Props.C82_ofb", "Verif.Props.C82_ctr", "Verif.Props.C82_failed_finish_invisible", "Verif.Props.C82_complete_later"], "note": "Any block cipher obeying the trait contract. CBC encryption with default padding never fails in finish and is described for one message by C08; a CTR counter must yield a block at every call. The specification records that finish of CBC encryption without padding and of CTR does not go back to the IV or first counter."},
{"property": "C83", "status": "proved", "theorems": ["Verif.Props.C83_md5", "Verif.Props.C83_sha1", "Verif.Props.C83_sha256", "Verif.Props.C83_sm3", "Verif.Props.C83_sha512", "Verif.Props.C83_sha224", "Verif.Props.C83_sha384", "Verif.Props.C83_sha512t256", "Verif.Props.C83_sha512t224"], "note": "The collision found is among the compression function calls made for the two messages, so the statement is not met trivially. Message lengths as in the quantifier; beyond 2^61 bytes the 64-bit length field wraps as the standards say."},
{"property": "C84", "status": "proved", "theorems": ["Verif.Props.C84_ecb", "Verif.Props.C84_ecb_pattern", "Verif.Props.C84_cbc", "Verif.Props.C84_cbc_damage", "Verif.Props.C84_cbc_resync", "Verif.Props.C84_cfb", "Verif.Props.C84_cfb_resync", "Verif.Props.C84_cfb_damage", "Verif.Props.C84_ofb", "Verif.Props.C84_ctr"], "note": "One-shot decryption; bytes that unpadding cuts off are not spoken of. Streams deliver the same bytes by C06, C09, C12, C13, C14 and C82."},
{"property": "C85", "status": "proved", "theorems": ["Verif.Props.C85_hmac_key_zeros", "Verif.Props.C85_hmac_key_hash", "Verif.Props.C85_hmac_collision", "Verif.Props.C85_cmac_one_block", "Verif.Props.C85_cmac_change", "Verif.Props.C85_eia3_linear"], "note": "CMAC with the standard block sizes. HMAC with hash objects fresh from their constructor; b + message length below 2^64. The EIA3 statement is about messages written at once (C40: chunking is wrong in the code)."},
{"property": "C86", "status": "proved", "theorems": ["Verif.Props.C86_twin", "Verif.Props.C86_pair", "Verif.Props.C86_hash", "Verif.Props.C86_messages", "Verif.Props.C86_keys", "Verif.Props.C86_reuse"], "note": "exact description through the group of points: twins, no third pair, dependence on the truncated hash, collisions of messages and keys, key recovery from a repeated r. The condition p <= r + n is part of the statement; it excludes that two points with different x coordinates have the same r."},
{"property": "C87", "status": "partial", "theorems": ["Verif.Props.C87_new", "Verif.Props.C87_results", "Verif.Props.C87_history", "Verif.Props.C87_default", "Verif.Props.C87_default_history", "Verif.Props.C87_ofb", "Verif.Props.C87_cfb_encrypt", "Verif.Props.C87_cfb_decrypt", "Verif.Props.C87_cbc_encrypt", "Verif.Props.C87_cbc_encrypt_stream", "Verif.Props.C87_cbc_decrypt", "Verif.Props.C87_cbc_decrypt_stream", "Verif.Props.C87_cbc_decrypt_refuted", "Verif.Props.C87_partial"], "note": "The bookkeeping is proved for every source and history (C87_history, C87_results, C87_default). OFB and CFB refuse (C87_ofb, C87_cfb_encrypt, C87_cfb_decrypt), CBC encryption refuses messages of at least one block. CBC decryption does not refuse: C87_cbc_decrypt_refuted; C87_cbc_decrypt and C87_cbc_decrypt_stream say exactly what it delivers instead, and the two disagree. CBC::encrypt of less than a block never uses the IV."},
{"property": "C88", "status": "proved", "theorems": ["Verif.Props.C88_md5", "Verif.Props.C88_sha1", "Verif.Props.C88_sha256", "Verif.Props.C88_sha512", "Verif.Props.C88_sm3"], "note": "The registers r are the only ones that spell the given digest. Nothing is claimed for the truncated hashes, HMAC and SHA-3."},
{"property": "C89", "status": "proved", "theorems": ["Verif.Props.C89_mirror", "Verif.Props.C89_twice", "Verif.Props.C89_tdes"], "note": "Lists of NIST SP 800-67 in Spec/WeakKeys."},
{"property": "C90", "status": "proved", "theorems": ["Verif.Props.C90_pkcs1_class", "Verif.Props.C90_pkcs1_binding", "Verif.Props.C90_pss_binding", "Verif.Props.C90_oaep_label"], "note": "PSS in release builds (in builds with overflow checks verify accepts nothing, C65)."},
{"property": "C91", "status": "partial", "theorems": ["Verif.Props.C91_only", "Verif.Props.C91_factor", "Verif.Props.C91_gcd", "Verif.Props.C91_draws", "Verif.Props.C91_uniform_refuted"], "note": "Exact independence is refuted by C91_uniform_refuted: the draw 0 is mapped to 1, so the unblinded ciphertext itself has two draws. C91_draws gives the exact counts."},
{"property": "C92", "status": "proved", "theorems": ["Verif.Props.C92_made_exact", "Verif.Props.C92_zero", "Verif.Props.C92_known_source", "Verif.Props.C92_same_source", "Verif.Props.C92_hash", "Verif.Props.C92_made"], "note": "The exceptional case of C92_same_source (an attempt ending with s = 0) itself determines the key. C92_made_exact: the pairs anybody can make for suitable hash numbers are exactly the accepted ones. C92_zero: for a hash number that is a multiple of q the public key itself gives an accepted pair."},
{"property": "C93", "status": "partial", "theorems": ["Verif.Props.C93_field_element", "Verif.Props.C93_margin", "Verif.Props.C93_margin_p521_refuted", "Verif.Props.C93_generate_key"], "note": "C93_field_element and C93_generate_key give the exact number of sequences of random words behind every secret. The margin of FIPS 186-4 (64 bits) holds for P-224, P-256 and P-384 (C93_margin) and fails for P-521 (C93_margin_p521_refuted: 55 bits), because its field size is given as 512 bits."},
{"property": "C94", "status": "partial", "theorems": ["Verif.Props.C94_public", "Verif.Props.C94_private", "Verif.Props.C94_secret_refuted"], "note": "The first half is proved for any text of numbers that is injective and free of quotes (rmath's {:#x} is external). The second half is false: Display and Debug of all private keys print the secret exponent (C94_secret_refuted)."},
{"property": "C95", "status": "partial", "theorems": ["Verif.Props.C95_values", "Verif.Props.C95_p256_base_exact", "Verif.Props.C95_p256_base_partial", "Verif.Props.C95_p256_point_refuted", "Verif.Props.C95_generic_refuted", "Verif.Props.C95_p224_point_partial", "Verif.Props.C95_p224_base_partial"], "note": "Exact answers for the modelled steps. P-256 base point: the number of bytes of the scalar is seen and nothing else (C95_p256_base_exact, _partial). P-224: the number of bits, and whether the scalar is n-1 (C95_p224_*_partial). P-256 with another point and the generic curves: the whole scalar (C95_p256_point_refuted: p256.rs:997 makes its masks with an if; C95_generic_refuted). Steps inside rmath and the effects of the compiler are not modelled."},
{"property": "C96", "status": "partial", "theorems": ["Verif.Props.C96_cbc_refuted", "Verif.Props.C96_cbc_stream_refuted", "Verif.Props.C96_cfb_refuted", "Verif.Props.C96_empty_partial"], "note": "False with DefaultPadding: one fixed program, with at most 256(bs+1) questions for a block, finds every byte that the receiver of any ciphertext reads, for every cipher with blocks below 256 bytes (C96_cbc_refuted and C96_cfb_refuted with chosen IVs, C96_cbc_stream_refuted with any IV). Without padding, and for OFB, acceptance depends on the length only (C96_empty_partial)."},
{"property": "C97", "status": "partial", "theorems": ["Verif.Props.C97_same", "Verif.Props.C97_kind_partial", "Verif.Props.C97_text_exact", "Verif.Props.C97_refuted"], "note": "False: the kind of the error is always the same (C97_kind_partial), but its text is not (C97_text_exact says when which text comes). C97_refuted: Manger's attack, as one explicit program with a bounded number of questions, recovers the message of every ciphertext from these texts, provided no question hits the right label hash with a wrong separator by chance, for all moduli of at least 3*256^(k-1). C97_same: the model with texts refines the one of C44/C45."},
{"property": "C98", "status": "partial", "theorems": ["Verif.Props.C98_pkcs1", "Verif.Props.C98_pss", "Verif.Props.C98_pss_verify", "Verif.Props.C98_generated", "Verif.Props.C98_fault_refuted", "Verif.Props.C98_fault_other_refuted", "Verif.Props.C98_composite_refuted"], "note": "Proved for signatures, with nothing assumed of the key: C98_pkcs1 (handed out implies accepted by every verifier), C98_pss (the e-th power is the encoding with the drawn salt), C98_pss_verify (accepted in a release build, lengths as in C65), C98_generated (length and range for all keys the generator makes, from any source). False of `decrypt`, which checks nothing and is what OAEP and PKCS #1 decryption use: C98_composite_refuted (a wrong number without an error), C98_fault_refuted and C98_fault_other_refuted (every wrong answer of a key with one damaged CRT exponent gives a prime factor by one gcd, blinded or not)."},
{"property": "C99", "status": "partial", "theorems": ["Verif.Props.C99_values", "Verif.Props.C99_tables_partial", "Verif.Props.C99_aes_first", "Verif.Props.C99_aes_encrypt_refuted", "Verif.Props.C99_aes_decrypt_refuted", "Verif.Props.C99_aes_new_refuted", "Verif.Props.C99_aes_lines_refuted", "Verif.Props.C99_sm4_new_refuted", "Verif.Props.C99_sm4_refuted", "Verif.Props.C99_des_refuted"], "note": "Proved: C99_values (the observed computations have the results of the other theorems), C99_tables_partial (which tables are read and how often is the same for all keys of one length and all blocks). False of the indices: C99_aes_encrypt_refuted, C99_aes_decrypt_refuted (the reads of one block determine key and block, exactly), C99_aes_new_refuted, C99_sm4_new_refuted (the reads of the key schedule determine the key), C99_sm4_refuted, C99_des_refuted (known block; for DES all bits but the unused parity bits, exactly), C99_aes_first (the first sixteen indices are block xor key), C99_aes_lines_refuted (with cache lines of 2^m entries the upper 8 - m bits of sixteen key bytes). The back end with AES instructions reads no tables."},
{"property": "C100", "status": "proved", "theorems": ["Verif.Props.C100_ecb", "Verif.Props.C100_cbc", "Verif.Props.C100_cfb", "Verif.Props.C100_ofb", "Verif.Props.C100_ctr", "Verif.Props.C100_cbc_one_block", "Verif.Props.C100_cbc_flat"], "note": "Exact numbers: (256^n - d)! permutations, d the number of different ciphertext blocks (ECB, CBC), of different blocks before a mask (CFB), of different masks (OFB), of different counter blocks (CTR); 0 for a guess that does not agree. C100_cbc_one_block: one block is hidden perfectly. C100_cbc_flat: possible guesses are equally good. About the modes only; that a concrete cipher is like a random permutation is not provable. Messages with a partial last block (CTR, OFB) and shorter CFB segments are not spoken of."},
{"property": "C101", "status": "partial", "theorems": ["Verif.Props.C101_state", "Verif.Props.C101_period", "Verif.Props.C101_params", "Verif.Props.C101_cipher_mac_refuted"], "note": "The last sentence holds for direction true and is false for direction false (C101_params says exactly when): C101_cipher_mac_refuted computes the tag of every message from a plaintext at least 16 bytes longer and its ciphertext, without the key. The standards have this too and so demand separate keys for 128-EEA3 and 128-EIA3; the crate does not say so. Bearers of 32 and more are not refused and act as their value modulo 32."},
{"property": "C102", "status": "partial", "theorems": ["Verif.Props.C102_kind_partial", "Verif.Props.C102_refuted", "Verif.Props.C102_determined_refuted", "Verif.Props.C102_attack_refuted", "Verif.Props.C102_attack_demo"], "note": "Refusals are all alike (C102_kind_partial), but the first sentence is false: the accepted factors tell any two units modulo n apart (C102_refuted), so the answers alone determine the encoded message (C102_determined_refuted), and Bleichenbacher's adaptive attack is sound against this receiver for every key, message and state (C102_attack_refuted). C102_attack_demo is a complete run against the model with a key of 45 bytes. How many questions the attack needs in general is not proved; it is a heuristic in the paper too. The scheme itself has this flaw; the crate has no decryption that returns a random message instead of an error, and does not warn."},
{"property": "C103", "status": "partial", "theorems": ["Verif.Props.C103_digest_func", "Verif.Props.C103_pkcs1_guess_refuted", "Verif.Props.C103_oaep_guess_refuted", "Verif.Props.C103_pkcs1_related_refuted", "Verif.Props.C103_dsa_refuted", "Verif.Props.C103_zuc_clone", "Verif.Props.C103_zuc_refuted", "Verif.Props.C103_iv_refuted", "Verif.Props.C103_pss_same", "Verif.Props.C103_ecdsa_same"], "note": "The part on digest_func holds for every lawful hash. The part on random sources and copies is false: rand_source returns a copy that yields the same numbers again. With it a DSA key follows from two signatures (C103_dsa_refuted), RSA ciphertexts can be checked against guesses (C103_pkcs1_guess_refuted, C103_oaep_guess_refuted), and with exponent 3 two PKCS#1 v1.5 ciphertexts and the difference of the messages give the messages (C103_pkcs1_related_refuted, Franklin and Reiter). Copies of ZUC ciphers and of mode objects repeat key stream and IVs (C103_zuc_refuted, C103_iv_refuted; CTR: C74). Assumes that clone of a random source copies its state, as a derived Clone does. For the signature schemes whose nonce or salt does not give the key away, a second object made of what is handed out signs every message exactly as the original would (C103_pss_same, C103_ecdsa_same)."},
{"property": "C104", "status": "partial", "theorems": ["Verif.Props.C104_md5_refuted", "Verif.Props.C104_sha1_refuted", "Verif.Props.C104_joux_md5", "Verif.Props.C104_concat_md5_refuted", "Verif.Props.C104_joux_sha1", "Verif.Props.C104_concat_sha1_refuted", "Verif.Props.C104_joux_sha256", "Verif.Props.C104_concat_sha256_refuted", "Verif.Props.C104_joux_sha512", "Verif.Props.C104_concat_sha512_refuted", "Verif.Props.C104_joux_sm3", "Verif.Props.C104_concat_sm3_refuted", "Verif.Props.C104_pkcs1", "Verif.Props.C104_pss", "Verif.Props.C104_dsa", "Verif.Props.C104_ecdsa", "Verif.Props.C104_sha1_signature_refuted"], "note": "Refuted for MD5 and SHA-1 by the published pairs of Wang and Yu (2004) and Stevens et al. (2017), for every common ending (C104_md5_refuted, C104_sha1_refuted); with SHA-1, verify of all four schemes reports the same for both messages, for every key and signature (C104_sha1_signature_refuted; C104_pkcs1, C104_pss, C104_dsa, C104_ecdsa for any lawful hash). For MD5, SHA-1, SHA-256, SHA-512 and SM3, t collisions give 2^t messages with one digest (C104_joux_*, Joux 2004), and break the concatenation with any second function of fewer than t bits (C104_concat_*_refuted). That no collision of SHA-2 or SM3 is known cannot be stated in a model."},
{"property": "C105", "status": "partial", "theorems": ["Verif.Props.C105_ecdsa_infinity_refuted", "Verif.Props.C105_ecdsa_off_curve_refuted", "Verif.Props.C105_ecdsa_transfer_refuted", "Verif.Props.C105_ecdsa_second_key_refuted", "Verif.Props.C105_ecdsa_checked_partial", "Verif.Props.C105_dsa_one_refuted", "Verif.Props.C105_dsa_transfer_refuted", "Verif.Props.C105_dsa_checked_partial", "Verif.Props.C105_rsa_prime_refuted"], "note": "Refuted: with the ECDSA key (0, 0), with the key (3, 0), with the DSA key y = 1 and with an RSA key whose modulus is a prime, everybody can sign every message (C105_ecdsa_infinity_refuted, C105_ecdsa_off_curve_refuted, C105_dsa_one_refuted, C105_rsa_prime_refuted). An accepted ECDSA or DSA signature can be moved to every other message by choosing another key (C105_ecdsa_transfer_refuted, C105_dsa_transfer_refuted), and every accepted ECDSA signature is accepted under a second key (C105_ecdsa_second_key_refuted); these last three hold for the schemes themselves. Positive part: if is_on_curve accepts a point of one of the four curves, it belongs to exactly one private key (C105_ecdsa_checked_partial), and likewise for y with y^q = 1 mod p (C105_dsa_checked_partial); that nobody can sign without it cannot be stated in a model."},
{"property": "C106", "status": "partial", "theorems": ["Verif.Props.C106_values", "Verif.Props.C106_hidden_partial", "Verif.Props.C106_new_refuted", "Verif.Props.C106_cipher_new_refuted", "Verif.Props.C106_message_refuted", "Verif.Props.C106_tdes_refuted"], "note": "Refuted: making a generator shows its key and its initial vector exactly (C106_new_refuted), making a cipher object shows key, count, direction and the bearer modulo 32 (C106_cipher_new_refuted), and one message of 60 bytes shows the state of the generator and so all later words, after any history (C106_message_refuted). One triple DES block shows the three keys up to the parity bits (C106_tdes_refuted). What is hidden: order and number of the reads depend on the lengths only, and the messages themselves are not visible (C106_hidden_partial). C106_values: the logged computations are the ones of the other properties (C38, C39, C89). The ZUC MAC is not logged; it takes its words from the same generator."},
{"property": "C107", "status": "partial", "theorems": ["Verif.Props.C107_cbc_refuted", "Verif.Props.C107_values_refuted", "Verif.Props.C107_ofb_refuted", "Verif.Props.C107_ctr_refuted", "Verif.Props.C107_ctr_partial"], "note": "Refuted, which is a property of the algorithms and not a fault of the code: with CBC two questions give the tag of any message (C107_cbc_refuted); ECB, CBC and CFB tell the value of the cipher at any block (C107_values_refuted); OFB with the zero IV and CTR from counter zero give messages with their tags for every block of key stream (C107_ofb_refuted, C107_ctr_refuted). What remains true: key stream of CTR whose counter does not meet the zero block tells nothing about the subkeys (C107_ctr_partial)."},
{"property": "C108", "status": "partial", "theorems": ["Verif.Props.C108_root_refuted", "Verif.Props.C108_pkcs1_refuted", "Verif.Props.C108_pss_refuted", "Verif.Props.C108_factors", "Verif.Props.C108_answers_refuted", "Verif.Props.C108_sign_partial"], "note": "Refuted: the error texts of OAEP::decrypt give the d-th root of every number (C108_root_refuted), hence signatures of any message that PKCS1::verify (C108_pkcs1_refuted; it is the very signature that sign makes) and PSS::verify (C108_pss_refuted) take; the provisos are those of C97, and C108_factors counts the blinding factors that serve. The plain answers of PKCS1::decrypt determine the signature (C108_answers_refuted). What remains true: a signature opens exactly one ciphertext, the encoding of the signed message (C108_sign_partial)."},
{"property": "C109", "status": "proved", "theorems": ["Verif.Props.C109_aes", "Verif.Props.C109_sm4", "Verif.Props.C109_des", "Verif.Props.C109_des_rotate", "Verif.Props.C109_zuc", "Verif.Props.C109_zuc_mac", "Verif.Props.C109_keccak"], "note": "The functions are modelled a second time with every check as a possible panic and with arrays filled in place (Model/Checked), and proved equal to the models the other properties use. C109_des_rotate shows that the checks can fire: rotation amounts 0 and 4 would panic. The ZUC MAC panics exactly when 2^64 bits are written between two resets (part of C109_zuc_mac). Known exceptions elsewhere, with their own properties: PSS with short keys (C48, C65) and the P-256 arithmetic (C58, C68). The state array of Keccak is indexed by loop variables or by values reduced modulo 5 or w, and is not repeated here."},
{"property": "C110", "status": "partial", "theorems": ["Verif.Props.C110_counter_partial", "Verif.Props.C110_counter_refuted", "Verif.Props.C110_pss_new", "Verif.Props.C110_pss_partial", "Verif.Props.C110_pss_useless", "Verif.Props.C110_pss_refuted", "Verif.Props.C110_pss_auto", "Verif.Props.C110_oaep_digest", "Verif.Props.C110_capacity"], "note": "Partly false. Proved: counters up to 2^64-8 bits and PSS objects whose lengths add up to less than 2^64 behave as the models over unbounded numbers; exact outcome of the PSS and OAEP constructors for every 64-bit size. Refuted: wider counters (panic, or a counter of empty values, C110_counter_refuted); the salt length 2^64-1 is accepted by every release build, for every key, and the object panics on signing and accepts no signature (C110_pss_refuted); rates and numbers of primes from 2^63 on panic (C110_capacity). Memory running out for smaller sizes is not modelled."},
{"property": "C111", "status": "partial", "theorems": ["Verif.Props.C111_oaep_bits", "Verif.Props.C111_dsa_bits", "Verif.Props.C111_pss_bits", "Verif.Props.C111_ecdsa_bits", "Verif.Props.C111_oaep", "Verif.Props.C111_dsa", "Verif.Props.C111_pss", "Verif.Props.C111_ecdsa", "Verif.Props.C111_hmac", "Verif.Props.C111_oaep_empty_refuted", "Verif.Props.C111_pss_empty_refuted"], "note": "Holds for all positive output lengths, in whole bytes (C111_oaep, C111_pss, C111_dsa, C111_ecdsa) and in bits (the theorems ending in _bits), with the restrictions of C48 (PSS, modulus lengths) and C49 (DSA, digests not longer than q). Refuted for the output length 0, which the constructors accept: OAEP encryption and PSS signing never return (C111_oaep_empty_refuted, C111_pss_empty_refuted). Missing: DSA and ECDSA with length 0, which depends on how rmath reads an empty byte string."},
{"property": "C112", "status": "partial", "theorems": ["Verif.Props.C112_little", "Verif.Props.C112_little_fips46", "Verif.Props.C112_big_endian_refuted", "Verif.Props.C112_roundtrip_partial", "Verif.Props.C112_bits_in_clear_refuted", "Verif.Props.C112_key_bits_refuted"], "note": "Refuted for big-endian machines, which a cross build reaches: the published vector fails (C112_big_endian_refuted), sixteen bits of every block pass unencrypted through DES and triple DES (C112_bits_in_clear_refuted), and the highest bit of each key byte has no effect (C112_key_bits_refuted). What holds: little-endian machines give FIPS 46-3 (C112_little_fips46), and on either machine the round trip holds and other block lengths are refused (C112_roundtrip_partial)."},
{"property": "C113", "status": "partial", "theorems": ["Verif.Props.C113_aes_values", "Verif.Props.C113_aes_blocks", "Verif.Props.C113_aes_new_partial", "Verif.Props.C113_aes192_refuted", "Verif.Props.C113_hashes_partial", "Verif.Props.C113_hashes_refuted"], "note": "Refuted for AES with 24-byte keys, code that is in use: the constructor reads eight bytes beyond the end of the key array, for every key (C113_aes192_refuted; C22 shows that the result does not depend on them); all other accesses are sound (C113_aes_blocks, C113_aes_new_partial). In the disabled code the stores of SHA-1 and SHA-256 demand an alignment that the type does not give, and MD5 writes through a pointer for reading (C113_hashes_refuted); bounds hold for data of every length (C113_hashes_partial)."},
{"property": "C114", "status": "partial", "theorems": ["Verif.Props.C114_specification", "Verif.Props.C114_width64", "Verif.Props.C114_width32_partial", "Verif.Props.C114_panics", "Verif.Props.C114_debug_refuted", "Verif.Props.C114_release", "Verif.Props.C114_release_refuted", "Verif.Props.C114_md5_refuted", "Verif.Props.C114_same_objects", "Verif.Props.C114_zuc_partial", "Verif.Props.C114_zuc_refuted"], "note": "Holds on 64-bit machines up to 2^64 bytes including the padding (C114_width64) and on 32-bit machines up to 2^32 bytes, for MD5 up to 2^29 bytes (C114_width32_partial). Refuted beyond: a 32-bit debug build panics (C114_debug_refuted, exactly when: C114_panics), a release build hashes a text with a wrong length field (C114_release, C114_release_refuted), MD5 in both builds from 512 MiB on (C114_md5_refuted). The ZUC MAC on a 32-bit machine ignores 512 MiB appended to a message written at once, for every key (C114_zuc_refuted). C114_same_objects links the 64-bit release build to the objects of the other properties."},
{"property": "C115", "status": "partial", "theorems": ["Verif.Props.C115_first", "Verif.Props.C115_ecb_encrypt", "Verif.Props.C115_cfb_encrypt", "Verif.Props.C115_cbc_encrypt_to_finish", "Verif.Props.C115_ecb_decrypt", "Verif.Props.C115_cbc_decrypt", "Verif.Props.C115_cfb_decrypt", "Verif.Props.C115_ofb", "Verif.Props.C115_ctr", "Verif.Props.C115_no_failures", "Verif.Props.C115_first_call_harmless", "Verif.Props.C115_write_recovery_refuted", "Verif.Props.C115_finish_again_refuted", "Verif.Props.C115_decrypt_twice_refuted", "Verif.Props.C115_ofb_truncated_refuted", "Verif.Props.C115_ctr_skips_refuted", "Verif.Props.C115_cbc_chain_refuted", "Verif.Props.C115_cbc_spoiled_refuted", "Verif.Props.C115_write_panics_refuted", "Verif.Props.C115_reset", "Verif.Props.C115_cbc_encrypt", "Verif.Props.C115_cbc_spoiled_link_refuted", "Verif.Props.C115_ecb_encrypt_empty", "Verif.Props.C115_ecb_empty_completed", "Verif.Props.C115_cbc_encrypt_empty"], "note": "Every result of every history is given exactly by simple rules: C115_ecb_encrypt, C115_cfb_encrypt, C115_ecb_decrypt, C115_cbc_decrypt, C115_cfb_decrypt, C115_ofb, C115_ctr, and C115_cbc_encrypt (whatever a failing call leaves in its destination, as long as the length stays that of a block); C115_cbc_encrypt_to_finish says in terms of the message what CBC returns up to the first finish. ECB and CBC encryption with DefaultPadding there, with EmptyPadding in C115_ecb_encrypt_empty and C115_cbc_encrypt_empty; with EmptyPadding a refused ECB finish does no harm when the cipher does not fail (C115_ecb_empty_completed). What holds: errors are reported, reset gives a new stream (C115_reset), and on decrypting streams and OFB a failure at the first block of a write is harmless (C115_first_call_harmless). Recovery is refuted: a failed write of an encrypting stream has taken in a part (C115_write_recovery_refuted), finish pads again when called again (C115_finish_again_refuted), decrypting streams decrypt the served blocks twice (C115_decrypt_twice_refuted), OFB returns one block and drops the rest (C115_ofb_truncated_refuted), CTR skips counter blocks (C115_ctr_skips_refuted), CBC chains to the IV (C115_cbc_chain_refuted) or to whatever the failing call left (C115_cbc_spoiled_refuted, C115_cbc_spoiled_link_refuted), and write may panic after a failed finish (C115_write_panics_refuted). C115_no_failures links the objects to those of C05 to C14; C115_first validates the specification."},
{"property": "C116", "status": "partial", "theorems": ["Verif.Props.C116_ecb_encrypt", "Verif.Props.C116_cbc_encrypt", "Verif.Props.C116_cfb_encrypt", "Verif.Props.C116_ofb", "Verif.Props.C116_ecb_decrypt", "Verif.Props.C116_cbc_decrypt", "Verif.Props.C116_cfb_decrypt", "Verif.Props.C116_ctr", "Verif.Props.C116_retry", "Verif.Props.C116_ctr_retry_refuted", "Verif.Props.C116_cmac", "Verif.Props.C116_cmac_again_refuted"], "note": "Exact outcomes of a call (calls made, buffer, result): C116_ecb_encrypt, C116_cbc_encrypt, C116_cfb_encrypt, C116_ofb, C116_ecb_decrypt, C116_cbc_decrypt, C116_cfb_decrypt, C116_ctr (with the counter left in the object). Trying again is right for ECB, CBC, CFB and OFB (C116_retry) and refuted for CTR, whose counter has moved on (C116_ctr_retry_refuted). CMAC panics when the cipher fails; a client that then calls reset gets the right tags in every history (C116_cmac), one that calls checksum again gets the plain encryption of the last block (C116_cmac_again_refuted, blocks of 8 and 16 bytes)."},
{"property": "C117", "status": "partial", "theorems": ["Verif.Props.C117_guess", "Verif.Props.C117_fixed_points", "Verif.Props.C117_unchanged_refuted", "Verif.Props.C117_exponent_one", "Verif.Props.C117_jacobi_refuted", "Verif.Props.C117_small_message_refuted", "Verif.Props.C117_broadcast_refuted", "Verif.Props.C117_common_modulus_refuted", "Verif.Props.C117_product_refuted"], "note": "encrypt is the textbook function without encoding, so the statement is refuted in every part, for all keys: exactly the product of 1 + gcd(e - 1, p - 1) messages are their own ciphertexts (C117_fixed_points), at least 3 to the number of primes (C117_unchanged_refuted), all of them for e = 1, which the check refuses (C117_exponent_one); the ciphertext has the Jacobi symbol of the message (C117_jacobi_refuted); short messages are not reduced (C117_small_message_refuted); e ciphertexts of one message determine it (C117_broadcast_refuted), and so do two with coprime exponents (C117_common_modulus_refuted); products of ciphertexts are ciphertexts (C117_product_refuted). What holds: different messages have different ciphertexts, so that only a guess can be checked (C117_guess)."},
{"property": "C118", "status": "partial", "theorems": ["Verif.Props.C118_history", "Verif.Props.C118_message", "Verif.Props.C118_after_refusal", "Verif.Props.C118_same_object", "Verif.Props.C118_list_counter", "Verif.Props.C118_short_value_refuted"], "note": "C118_history gives the exact result of every call of every history; C118_message and C118_after_refusal are its consequences for one message and after a refusal; C118_same_object identifies the object with that of C14 for all ciphers and counters; C118_list_counter shows that counters over any list of values meet the hypotheses. The last sentence fails for counters that announce more bits than their values have: new checks only bits_len(), and the slice panics (C118_short_value_refuted). Panics are excluded for all counters whose values are at least a block long."},
{"property": "C119", "status": "proved", "theorems": ["Verif.Props.C119_oaep", "Verif.Props.C119_pss", "Verif.Props.C119_pkcs1", "Verif.Props.C119_pkcs1_reached"], "note": "Counted over all sequences of as many words as the operation draws (OAEP, PSS) or of any number K of words (PKCS#1, where the count is relative to the sequences with which encryption ends). C119_oaep and C119_pss give the exact number of sequences for every seed and salt, identified by the ciphertext or signature (which determine them). C119_pkcs1: each of the 255^L padding strings gets the share 1/255^L; C119_pkcs1_reached: each is reached as soon as the words have more bytes than it. PSS is counted without blinding, which draws further numbers but does not change the signature."},
{"property": "C120", "status": "partial", "theorems": ["Verif.Props.C120_pkcs1_exact", "Verif.Props.C120_pkcs1", "Verif.Props.C120_oaep", "Verif.Props.C120_pss_salt", "Verif.Props.C120_pss_partial", "Verif.Props.C120_pss_debug_refuted", "Verif.Props.C120_pss_max_salt_refuted", "Verif.Props.C120_no_panic", "Verif.Props.C120_pkcs1_too_short_refuted", "Verif.Props.C120_pss_fits", "Verif.Props.C120_oaep_fits"], "note": "Proved for OAEP completely (C120_oaep), for PKCS1 for non-empty messages and moduli with room for the hash (C120_pkcs1; C120_pkcs1_exact gives the outcome of the constructor for every length), for PSS in release builds with a multiple of 512 bits (C120_pss_partial); no scheme panics while generating (C120_no_panic). Refuted: PKCS1::auto_generate_key compares bits with bytes and returns objects that can not sign anything (C120_pkcs1_too_short_refuted); the greatest salt is refused whenever the modulus has one bit more than a number of bytes (C120_pss_max_salt_refuted); in builds with overflow checks every verification of a genuine PSS signature panics (C120_pss_debug_refuted, from C48). The prime generator is assumed to keep its contract (GoodPrimes). C120_pss_fits and C120_oaep_fits: once a key is generated, exactly the sizes the encoding fits into are taken."},
{"property": "C121", "status": "proved", "theorems": ["Verif.Props.C121_ofb_period", "Verif.Props.C121_ofb_two_ivs", "Verif.Props.C121_ofb_all_permutations", "Verif.Props.C121_ofb_short_share", "Verif.Props.C121_weak_key", "Verif.Props.C121_weak_tdes"], "note": "The key stream is what leads from message to ciphertext (`recovered`), so everything is said about OFB::encrypt. Streams give the same bytes by C13. The period of AES, SM4 or DES with a given key is not computed, only bounded; C121_ofb_all_permutations and C121_ofb_short_share count over all permutations of the blocks, as in C100."},
{"property": "C122", "status": "proved", "theorems": ["Verif.Props.C122_hmac", "Verif.Props.C122_oaep", "Verif.Props.C122_pss", "Verif.Props.C122_dsa", "Verif.Props.C122_ecdsa"], "note": "The restrictions of C48 and C49 are hypotheses and part of the statement. C122_hmac is for block sizes of 8 and 16 bytes, the ones of SP 800-38B; the other theorems are for all block sizes that the code accepts."},
{"property": "C123", "status": "partial", "theorems": ["Verif.Props.C123_ecb_delivers", "Verif.Props.C123_cbc_delivers", "Verif.Props.C123_cfb_delivers", "Verif.Props.C123_ofb_delivers", "Verif.Props.C123_ofb_ends", "Verif.Props.C123_ctr_delivers", "Verif.Props.C123_ctr_ends", "Verif.Props.C123_ecb_ends_partial", "Verif.Props.C123_cbc_ends_partial", "Verif.Props.C123_cfb_ends"], "note": "C123_*_delivers and C123_ofb_ends, C123_ctr_ends, C123_cfb_ends are full. C123_ecb_ends_partial and C123_cbc_ends_partial leave out messages one byte short of whole blocks under the default padding and the empty message without padding, which those streams cannot end (C06, C08, C09)."},
{"property": "C124", "status": "partial", "theorems": ["Verif.Props.C124_ofb", "Verif.Props.C124_ctr", "Verif.Props.C124_ecb_partial", "Verif.Props.C124_cbc_partial", "Verif.Props.C124_cbc_empty_exact", "Verif.Props.C124_cbc_empty_refuted", "Verif.Props.C124_cfb"], "note": "Proved for OFB, CTR and CFB (C124_ofb, C124_ctr, C124_cfb), and for ECB and for CBC with the default padding for messages that these streams can end (C124_ecb_partial, C124_cbc_partial; the others are C06, C08, C09). Refuted for CBC without padding, for every cipher and IV (C124_cbc_empty_refuted): the sender does not go back to the IV, the receiver does; C124_cbc_empty_exact says what arrives."},
{"property": "C125", "status": "proved", "theorems": ["Verif.Props.C125_ecb_encrypt", "Verif.Props.C125_ecb_decrypt", "Verif.Props.C125_cbc_encrypt", "Verif.Props.C125_cbc_decrypt", "Verif.Props.C125_cfb_encrypt", "Verif.Props.C125_cfb_decrypt", "Verif.Props.C125_ofb", "Verif.Props.C125_ctr", "Verif.Props.C125_ctr_seek"], "note": "One theorem per mode and direction (OFB and CTR have one function for both). For encryption with ECB and CBC the second part must be one the padding can take (default padding, or whole blocks): otherwise both calls fail (C04, C07). The converse of the decryption claims does not hold with the default padding, whose marker may lie in the first part."},
{"property": "C126", "status": "proved", "theorems": ["Verif.Props.C126_ecb_encrypt", "Verif.Props.C126_ecb_decrypt", "Verif.Props.C126_cbc_encrypt", "Verif.Props.C126_cbc_decrypt", "Verif.Props.C126_cfb_encrypt", "Verif.Props.C126_cfb_decrypt", "Verif.Props.C126_ofb", "Verif.Props.C126_ctr"], "note": "One theorem per stream type. Together with C125 (the one-shot results of longer inputs extend those of shorter ones) this gives that released output is never taken back. The failures of C06, C08, C09 and C11 concern finish, not write."},
{"property": "C127", "status": "proved", "theorems": ["Verif.Props.C127_ecb", "Verif.Props.C127_cbc_damage", "Verif.Props.C127_cbc_resync", "Verif.Props.C127_cfb_resync", "Verif.Props.C127_ofb", "Verif.Props.C127_ctr"], "note": "The streaming form of C84, for the output released before finish."},
{"property": "C128", "status": "partial", "theorems": ["Verif.Props.C128_ecb_exact", "Verif.Props.C128_cbc_exact", "Verif.Props.C128_cfb_exact", "Verif.Props.C128_ecb_partial", "Verif.Props.C128_cbc_partial", "Verif.Props.C128_cfb_partial", "Verif.Props.C128_ecb_refuted", "Verif.Props.C128_cbc_refuted", "Verif.Props.C128_cfb_refuted", "Verif.Props.C128_ofb_exact", "Verif.Props.C128_ctr_exact", "Verif.Props.C128_ofb_refuted"], "note": "False of every mode, for every cipher and IV (C128_ecb_refuted, C128_cbc_refuted, C128_cfb_refuted, C128_ofb_refuted). Exact results: ECB, CBC and CFB unpad the part of the message that is left, so that it is accepted exactly if a byte 0x80 is in it (C128_ecb_exact, C128_cbc_exact, C128_cfb_exact with C02: any byte 0x80 is taken for the marker, also one in the middle); OFB and CTR return the part that is left (C128_ofb_exact, C128_ctr_exact). What holds of ECB, CBC and CFB: cut inside a block (segment), or before the first byte 0x80 of the message, it is refused (C128_ecb_partial, C128_cbc_partial, C128_cfb_partial). No mode without a MAC could do it for all messages, but with the padding of the standard a byte 0x80 in the middle of a block would not do."},
{"property": "C129", "status": "partial", "theorems": ["Verif.Props.C129_ecb_accepts", "Verif.Props.C129_cbc_accepts", "Verif.Props.C129_cfb_accepts", "Verif.Props.C129_ofb_accepts", "Verif.Props.C129_ctr_accepts", "Verif.Props.C129_partial", "Verif.Props.C129_ecb_refuted", "Verif.Props.C129_cbc_refuted", "Verif.Props.C129_cfb_refuted", "Verif.Props.C129_ofb_refuted"], "note": "False of every mode, for every cipher and IV (C129_ecb_refuted, C129_cbc_refuted, C129_cfb_refuted, C129_ofb_refuted), and as badly as can be: in ECB, CBC and CFB no addition of whole blocks (segments) is ever refused, because the marker 0x80 that was there is still found (C129_ecb_accepts, C129_cbc_accepts, C129_cfb_accepts); with the padding of the standard a random block would be refused almost always. OFB and CTR return the message followed by as many bytes as were appended (C129_ofb_accepts, C129_ctr_accepts). What holds: an addition that is not whole blocks (segments) is refused by ECB, CBC and CFB, with any padding (C129_partial)."},
{"property": "C130", "status": "partial", "theorems": ["Verif.Props.C130_ecb_exact", "Verif.Props.C130_cbc_exact", "Verif.Props.C130_ecb_partial", "Verif.Props.C130_cbc_partial", "Verif.Props.C130_ecb_refuted", "Verif.Props.C130_cbc_refuted"], "note": "Half of it holds: whatever a stream accepts the single call accepts, with the same message and any padding (C130_ecb_partial, C130_cbc_partial). The other half is false for every cipher and IV (C130_ecb_refuted, C130_cbc_refuted): the single call looks for the marker in the whole text, the stream in the last block only. Exact result of the stream for any bytes: C130_ecb_exact, C130_cbc_exact (no bytes, or an incomplete block, give an error; otherwise the last block is unpadded by itself)."},
{"property": "C131", "status": "proved", "theorems": ["Verif.Props.C131_made", "Verif.Props.C131_zero", "Verif.Props.C131_known_secret"], "note": "C131_made is an equivalence, so that it also says that there are no other accepted pairs. The condition p <= r + n of C131_known_secret excludes that two points with different x coordinates have the same r (see C86)."}
]}
