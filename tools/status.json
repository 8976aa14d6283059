{
 "C20": {
  "status": "partial",
  "note": "The property is false of the code when nbits is not a multiple of 8: get_mac computes the mask as (1 < rembits) - 1 instead of (1 << rembits) - 1, so the partial byte is zeroed (rembits >= 2) or kept whole (rembits = 1). C20_truncation_false gives a witness, C20_truncation_actual states what the code does, C20_truncation_partial proves the property for whole bytes."
 },
 "C17": {
  "status": "partial",
  "note": "False of the code for GOST 28147-89 CNT and CFB, Magma CTR and Kuznyechik CTR, OFB and CFB (the init callbacks leave num, the meshing counter and/or the counter half of the IV buffer as they were): the _false theorems give histories. Proved for GOST 28147-89 CBC and Kuznyechik CBC; partial theorems say when it holds for the others; C17_kuz_ctr_reinit_actual states what re-initialisation does."
 },
 "C49": {
  "status": "partial",
  "note": "Proved for GOST 28147-89 CFB and CNT (any history with data) and Magma up to 2^32-8 bytes. False for GOST 28147-89 CBC (its byte counter never moves) and for Magma after exactly 2^32 bytes: _false theorems. Kuznyechik: the section-size control accepts exactly non-zero multiples of 16 on the ACPKM ciphers."
 },
 "C18": {
  "status": "partial",
  "note": "False of the code for messages of exactly 8 bytes delivered by more than one update call (C18_mac_any_chunking_false: 4+4 bytes against 8 bytes at once); proved for every other length and every chunking, and for a single call of any length; C18_mac_exact_actual gives the MAC the code computes for every message and every chunking."
 },
 "C23": {
  "status": "partial",
  "note": "False of the code when the decrypting side makes no AAD update call (C23_round_trip_false): gost_mgm128_decrypt, unlike encrypt, does not compute the initial counter block, so decryption then starts from whatever the context holds. C23_round_trip_partial proves the round trip for every key, nonce, AAD chunking and data chunking when at least one AAD update (possibly empty) is made before decryption."
 },
 "C25": {
  "status": "partial",
  "note": "Call-sequence rules and length limits are proved; the length block is the standard one below the 32-bit (Magma) / 64-bit (Kuznyechik) limits (C25_length_block_partial), and wrong for lengths at the exact accepted limit (C25_length_block_false)."
 },
 "C27": {
  "status": "partial",
  "note": "CTR-ACPKM-OMAC: proved as an equivalence for every context history, key, IV, section size, input and tag (C27_acpkm_omac_*). MGM: proved as an equivalence when an AAD update was made; C27_mgm_tag_check_actual states what the code compares otherwise."
 },
 "C53": {
  "status": "partial",
  "note": "Proved for the digest output, any read splitting, and the check/round trip for every name within the buffer limit. False for the longest names (4095 characters for gostsum, over 4029 / 3965 for gost12sum), which the fgets buffer of PATH_MAX bytes misparses; gostsum -c stops silently with exit status 0 at the first malformed line; an empty line is read out of bounds: the _false and actual-behaviour theorems."
 },
 "C52": {
  "status": "partial",
  "note": "Proved for ciphers, digests and all other key methods. False for the listed Magma CTR-ACPKM-OMAC NID: the lookup returns success with a NULL method after any history (C52_pkey_methods_false)."
 },
 "C47": {
  "status": "partial",
  "note": "Proved for Kuznyechik (equivalence, state unchanged on failure). False for Magma: magma_get_asn1_parameters compares the callee's result with < 0 although it signals failure with 0, so malformed parameters are reported as success with a zero IV (C47_magma_false). GOST 28147-89: proved for parameters that decode; undecodable ones dereference NULL (C47_gost89_false)."
 },
 "C48": {
  "status": "partial",
  "note": "Proved for Kuznyechik, Magma CTR ciphers and GOST 28147-89 CFB/CBC. False for the GOST 28147-89 CNT ciphers: their init records no parameter set, so the stored parameters can never be loaded (C48_gost89_cnt_false). OpenSSL's DER codec is abstract."
 },
 "C55": {
  "status": "partial",
  "note": "Proved for Kuznyechik CTR, GOST 28147-89 CFB and CBC at any length. False for Magma CTR beyond 8192 bytes and Magma CTR-ACPKM beyond 1024 bytes (C55_magma_false): storing parameters changes the sender's section size, the receiver's second init resets it to the default. Kuznyechik CTR-ACPKM: proved up to 4096 bytes; C55_kuz_acpkm_actual characterises the rest. CTR-ACPKM-OMAC: proved if message and tag fit one section of the receiver; C55_acpkm_omac_actual states what happens in general. Magma MGM inherits the ASN.1 methods of Magma CTR: its parameters do not carry the nonce and report success (C55_magma_mgm_false, C55_magma_mgm_receiver_false)."
 },
 "C45": {
  "status": "proved",
  "note": "Proved for the eight curve files with their limb arithmetic, constants and tables (C45_every_curve) and for the signature and key agreement code over them (C45_engine_*). The curve without a file (tc26-512 test) uses OpenSSL's EC_POINT_mul, which is not modelled. On the Edwards curves a sum equal to the point of order 2 is reported as infinity (C45_two_reports_order2_as_infinity); this cannot happen for keys in the group of order q."
 },
 "C56": {
  "status": "proved",
  "note": "Code generated by fiat-crypto, translated statement by statement by tools/fiatparse.py (trusted, like the other transcriptions). The code feeds opposites, whose limbs exceed the bounds documented in the comments of the C functions, to additions and multiplications; the theorems hold for the larger bounds."
 },
 "C57": {
  "status": "proved",
  "note": "The ASN.1 templates of OpenSSL are a parameter (KeyDer) with its soundness as hypothesis; DerKey.coder is a concrete DER coder shown to meet it. Findings: key generation reports success without a key when the random source fails; the several names of one curve compare as different; the first octet of the BIT STRING content is not checked; coordinates not reduced modulo p are accepted; a 256-bit key type with a 512-bit curve is accepted."
 },
 "C58": {
  "status": "proved",
  "note": "OpenSSL's DER functions for the two structures are a parameter (KtDer) with its soundness as hypothesis; DerKt.coder is a concrete coder shown to meet it. The memory handling is modelled only where it is wrong. Findings (C58_cp_small_buffer_double_free, C58_cp_undecodable_key_ignored, C58_cp_bad_length_aborts, C58_cp_reject_writes_key, C58_cp_key_truncated, C58_2018_stale_ukm, C58_2018_long_ukm_ignored)."
 },
 "C59": {
  "status": "proved",
  "note": "OPENSSL_hexstr2buf and OBJ_txt2nid are arbitrary functions. Findings (C59_identifiers_refused, C59_vko_not_a_number, C59_null_text_crashes)."
 },
 "C60": {
  "status": "proved",
  "note": "OpenSSL's CMS functions are the specification's ktriSend, ktriReceive and kariDecrypt; DER coders as in C58. Findings (C60_kari_short_ukm, C60_kari_bad_key_freed_twice, C60_kari_no_ukm_crashes)."
 },
 "C61": {
  "status": "proved",
  "note": "The GOST 28147-89 MAC of exactly eight bytes given in several chunks is excepted in C61_mac89_is_standard (C18's finding). EVP_PKEY_new_mac_key and EVP_DigestSign* of libcrypto, strtol and OPENSSL_hexstr2buf are modelled as stated in Model/MacPkey.lean. Findings (C61_text_size_wraps, C61_kuznyechik_text_size, C61_kuznyechik_key_magma_digest, C61_raw_key_ignores_paramset)."
 },
 "C62": {
  "status": "proved",
  "note": "Findings: a zero seed drawn on a Magma context without application data (C62_magma_zero_seed), a new IV without a key keeps the MAC of the earlier data (C62_new_iv_keeps_mac), data without a key crash (C62_no_key_crashes). KDF_TREE's HMAC and the CMAC are OpenSSL's, uninterpreted as elsewhere; attributes are reduced to their octet string."
 },
 "C63": {
  "status": "proved",
  "note": "EVP_DigestInit_ex, EVP_MD_CTX_ctrl, EVP_DigestUpdate, EVP_DigestFinal_ex and EVP_MD_CTX_copy are modelled as stated in Model/ProvMac.lean. The GOST 28147-89 MAC of exactly eight bytes given in several pieces is C18's exception (mac89Blocks). Sizes that are no length of the MAC are characterised by provEffSize. Findings (C63_bad_size_accepted, C63_sections_with_key_argument_crash, C63_sections_with_key_argument_actual, C63_second_final_actual, C63_empty_key_crashes, C63_refused_key_actual, C63_init_does_not_restart; C63_dup_actual: a duplicate has the default size)."
 },
 "C64": {
  "status": "proved",
  "note": "EVP_DigestInit_ex, EVP_DigestUpdate, EVP_DigestFinal and EVP_MD_CTX_copy are modelled as stated in Model/ProvDigest.lean. Findings: the length of a piece becomes an int, so that a piece of 2^32 bytes is ignored (C64_long_piece_cut, C64_long_piece_collision) and one of 2^31 bytes reads out of bounds (C64_long_piece_overrun)."
 },
 "C65": {
  "status": "proved",
  "note": "Heap model of the digest data of gost_omac.c and gost_omac_acpkm.c under the EVP digest functions, refined to contexts holding their state by value. The exceptions to the no-leak part are stated and shown to leak (second key, key after final)."
 },
 "C66": {
  "status": "proved",
  "note": "EVP_CipherInit_ex, EVP_CipherUpdate, EVP_CipherFinal and the block buffering of OpenSSL 3.0 are modelled as stated in Model/ProvCipher.lean. Not covered: the two MGM and the two CTR-ACPKM-OMAC ciphers of the table, alg_id_param, overlapping buffers; re-initialised stream contexts are the subject of C17. Pieces of 2^31 bytes or more: C66_piece_too_long."
 },
 "C67": {
  "status": "partial",
  "note": "The code violates the claim: EVP_CIPHER_CTX_copy copies the pointers to the original's key schedule and IV buffer. Proved: the claim for all histories without copies and for all histories with copies that respect an explicit borrowing discipline (C67_copies_independent_partial); no leaks in any history; and what happens otherwise, for all histories: the copy follows the original's new key, dangles when the original is freed, and for Kuznyechik cannot be freed at all. C67_copies_independent_false is the counterexample to the full claim."
 },
 "C68": {
  "status": "proved",
  "note": "Refinement of a by-value specification for all histories, with undefined behaviour exactly where the specification has it (C68_copies_independent); a successful copy is a snapshot whatever is done with the other contexts afterwards (C68_copy_is_snapshot). OpenSSL's EVP_CIPHER_CTX_copy/reset/free and EVP_MD_CTX_copy are modelled from their documentation; the contents of a digest context are by value (its own pointer is C65)."
 },
 "C69": {
  "status": "partial",
  "note": "The code violates the claim: initialising a keyed context with a new key overwrites the pointer to its digest context, and copying a context without a key loses the digest context allocated for the copy. Proved: the exact number of lost digest contexts after every history (C69_leak_exact, C69_left_over); none is lost by histories without those two calls (C69_all_freed_partial); the two leaks for every key and both ciphers (C69_rekey_leaks, C69_failed_copy_leaks); C69_all_freed_false is the counterexample to the full claim."
 },
 "C70": {
  "status": "partial",
  "note": "The code violates the claim for decryptions without an update with associated data (C70_decrypt_actual; C23_round_trip_false is the counterexample). Proved: encryption in full (C70_encrypt_is_standard); decryption and round trip with at least one update with associated data (C70_decrypt_partial, C70_round_trip_partial); what is compared in every case (C70_decrypt_actual); no acceptance without a tag (C70_no_tag_refused); parameters and lengths (C70_before_init, C70_too_long_refused, C70_set_tag_accepts)."
 },
 "C71": {
  "status": "partial",
  "note": "The code violates the claim: every length from 1 to 16 is accepted, and always as many bytes as a block has are used. Proved: the block length is honoured (C71_nonce_length_partial); no other accepted length is, for every context of both ciphers (C71_nonce_length_false); exactly which bytes are used (C71_nonce_actual); Magma with 16-byte nonces: nonces that agree in 8 bytes give the same ciphertext and tag (C71_magma_long_nonces_collide); the same through the provider (C71_provider)."
 },
 "C72": {
  "status": "proved",
  "note": "Irreducibility is proved from the order of X (2^64-1 and 2^128-1, factored; the 47-bit factor by Pocklington), with powers evaluated by the kernel. API level: C72_changed_block_refused (through C24 and C27; the decrypting side makes at least one call with associated data, the case excluded is the one C27 shows to be broken anyway)."
 },
 "C73": {
  "status": "proved",
  "note": "The callbacks are written again on memory with two pointers (Model/Buffers.lean), statement by statement, and shown equal to the byte-level models of C01-C27, C62, whose correctness is proved there. The context and the local variables lie outside the two buffers; the block functions read their block before they write it. C73_shape_*: contexts made by the init functions meet the hypotheses and every call keeps them."
 },
 "C74": {
  "status": "partial",
  "note": "False of the code in two points, the rest is proved: a key may carry another name of its curve when threads use two names of one table entry at the same time (C74_name_false), and a group is leaked when two threads use a curve first at the same time (C74_leak_false). Proved for all schedules: the right curve (C74_right_curve), the right name when no entry is used under two names (C74_name_partial) or the call is not interrupted (C74_undisturbed), no NULL pointer (C74_no_fault), progress (C74_wait_free), at most one group per thread and entry (C74_leak_bounded). The model interleaves single accesses (sequential consistency); C gives unsynchronised accesses no meaning."
 },
 "C75": {
  "status": "partial",
  "note": "False of the code: overlapping first lookups of a value from the environment (C75_first_lookup_false, C75_double_free_false) and a set during the use of a looked-up string (C75_set_false) touch freed memory. Proved for all schedules: after all parameters were looked up once, lookups are safe and right (C75_after_startup_partial, C75_warm_partial); results are those of the environment also with sets and cold lookups (C75_environment_wins)."
 },
 "C76": {
  "status": "partial",
  "note": "False of the code for every digest and MAC (C76_digests_and_macs_false): their dispatch tables have no end entry. Proved for the ciphers and the provider's own table (C76_ciphers_fetchable_partial, C76_provider_table), and what is read instead for the others (C76_digests_and_macs_found)."
 },
 "C77": {
  "status": "partial",
  "note": "False of the code with two instances in one process: the error handle dangles, OIDs are freed twice, methods in use by another instance are freed (C77_*_false). Proved for all histories, whichever allocations fail, in which no instance is unloaded and no load fails while another is loaded (C77_alone_safe_partial), in particular one instance at a time (C77_one_at_a_time_safe_partial), with what is left allocated (C77_one_at_a_time_frees_partial)."
 },
 "C78": {
  "status": "partial",
  "note": "False of the code for TLSTREE: a big-endian host passes the bytes of each seed in reverse order, so that from the second key window on the keys differ from those of RFC 9189 unless HMAC collides (C78_tlstree_later_records, C78_tlstree_reversed_seeds). Proved for everything else that is compiled differently, and for the first window (C78_tlstree_first_window_partial)."
 },
 "C79": {
  "status": "proved",
  "note": "BN_print, BIO_indent and OBJ_nid2ln as documented; writing to the BIO does not fail."
 },
 "C80": {
  "status": "partial",
  "note": "False of the code in part: the freed buffer of VKO_compute_key holds the shared point (C80_vko_point_left), the cipher contexts of CryptoPro key transport stay on the stack and decrypt the message (C80_cp_decrypt_context_left, C80_cp_encrypt_context_left), a Kuznyechik section change leaves the new key on the stack (C80_kuznyechik_section_key_left), MAC keys stay in freed blocks (C80_mac_key_left). Proved on all paths for the buffers the code means to erase: shared keys, export keys, the plaintext of KImp15, KEG, key meshing, Magma ACPKM, CTR-ACPKM-OMAC keys, Magma and GOST 28147-89 contexts."
 },
 "C81": {
  "status": "partial",
  "note": "False of the code outside careful histories: names of an unloaded engine stand for freed methods (C81_name_after_unload_false), a freed ENGINE stays in libcrypto's tables after an unload or a failed load and is used by the next default choice (C81_reload_false, C81_failed_load_false), lack of memory for a digest method crashes the load (C81_digest_memory_crash_false). Proved for all careful histories and all allocation failures: safety, no leaks beyond one object per failed load, refusal of a second load, names resolve, loading succeeds with enough memory."
 },
 "C82": {
  "status": "partial",
  "note": "False of the code for named failures: pkey_GOST_ECcp_encrypt frees the ephemeral key twice when the caller's buffer is too small (C82_transport_false); gost_cms_set_kari_shared_info frees bytes of the CMS message when the agreement fails and leaks on success (C82_cms_agreement_false); gost89_get_asn1_parameters follows NULL on undecodable parameters (C82_get_parameters_false); leaks and NULL uses in further functions (C82_*_false). Proved on all paths for 23 functions, and for the 16 others on all paths without the named failures (C82_*_partial)."
 },
 "C84": {
  "status": "partial",
  "note": "False of the code: *siglen is not read, so 64 or 128 bytes are written into a shorter buffer (C84_short_buffer_false); a digest that is neither 32 nor 64 bytes long ends the process by OPENSSL_assert (C84_end_of_process_false). Proved: exactly the reported number of bytes is written, nothing on failure (C84_sign_memory_partial); exactly when the process ends (C84_end_of_process_partial)."
 },
 "C87": {
  "status": "partial",
  "note": "False of the code: cipher_get_ctx_params gives &der instead of der to OSSL_PARAM_set_octet_string, so the caller gets bytes of the stack (C87_algid_actual, C87_algid_false: no reader can recover the IV); parameters given together with alg_id_param are ignored (C87_others_ignored_false). Proved: the receiving direction (C87_received_kuz_ctr, C87_received_gost_cfb)."
 },
 "C92": {
  "status": "partial",
  "note": "False of the code for the indices: one encryption with a known block shows the whole key, computed explicitly from the accesses, whatever the mask (C92_gost89_indices_show_key_false, C92_magma_indices_show_key_false, C92_kuznyechik_indices_show_key_false). Proved: tables, order and number of the accesses do not depend on the key (C92_*_tables_partial). The accesses are added to the model by hand (Model/CipherTrace.lean); the values agree with the block functions (C92_*_value)."
 },
 "C95": {
  "status": "partial",
  "note": "False of the code for empty octets and for a SEQUENCE with an empty string (priv_len % key_len == 0 holds, so a key length of bytes is read from behind and becomes the key: C95_empty_octets_false, C95_empty_masked_false), and for an INTEGER whose contents are two bytes shorter than the key (it is taken for bare octets: C95_integer_false). Proved for everything else: C95_reads_within_partial, C95_octet_string, C95_masked_sequence, C95_integer_partial."
 }
}