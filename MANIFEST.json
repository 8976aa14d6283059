{
 "claims": [
  {
   "property": "C01",
   "status": "proved",
   "theorems": [
    "Gost.C01_gost89_block_inverse"
   ],
   "note": ""
  },
  {
   "property": "C02",
   "status": "proved",
   "theorems": [
    "Gost.C02_mask_irrelevant",
    "Gost.C02_magma_mask_irrelevant",
    "Gost.C02_key_readback"
   ],
   "note": ""
  },
  {
   "property": "C03",
   "status": "proved",
   "theorems": [
    "Gost.C03_magma_is_reversed_gost",
    "Gost.C03_magma_block_inverse"
   ],
   "note": ""
  },
  {
   "property": "C04",
   "status": "proved",
   "theorems": [
    "Gost.C04_builtin_rows_are_permutations",
    "Gost.C04_round_function_is_nibble_substitution"
   ],
   "note": ""
  },
  {
   "property": "C05",
   "status": "proved",
   "theorems": [
    "Gost.C05_kuznyechik_block_inverse",
    "Gost.C05_kuznyechik_permutation"
   ],
   "note": ""
  },
  {
   "property": "C06",
   "status": "proved",
   "theorems": [
    "Gost.C06_pi_tables",
    "Gost.C06_encryption_table",
    "Gost.C06_decryption_table",
    "Gost.C06_linv_table",
    "Gost.C06_table_lengths",
    "Gost.C06_table_rounds",
    "Gost.C06_galois_mul_is_polynomial_mul",
    "Gost.C06_linear_transform",
    "Gost.C06_key_schedule",
    "Gost.C06_encryption_is_standard"
   ],
   "note": ""
  },
  {
   "property": "C07",
   "status": "proved",
   "theorems": [
    "Gost.C07_inc_counter_adds_one",
    "Gost.C07_counters_do_not_repeat"
   ],
   "note": ""
  },
  {
   "property": "C08",
   "status": "proved",
   "theorems": [
    "Gost.C08_raw_ecb_cfb_invert"
   ],
   "note": ""
  },
  {
   "property": "C09",
   "status": "proved",
   "theorems": [
    "Gost.C09_cbc_is_cbc",
    "Gost.C09_cbc_roundtrip"
   ],
   "note": ""
  },
  {
   "property": "C10",
   "status": "proved",
   "theorems": [
    "Gost.C10_cfb_encrypts_cfb",
    "Gost.C10_cfb_decrypts_cfb",
    "Gost.C10_cfb_roundtrip"
   ],
   "note": ""
  },
  {
   "property": "C11",
   "status": "proved",
   "theorems": [
    "Gost.C11_cnt_keystream",
    "Gost.C11_cnt_roundtrip"
   ],
   "note": ""
  },
  {
   "property": "C12",
   "status": "proved",
   "theorems": [
    "Gost.C12_cnt_meshing_count",
    "Gost.C12_cfb_meshing_count"
   ],
   "note": ""
  },
  {
   "property": "C13",
   "status": "proved",
   "theorems": [
    "Gost.C13_magma_cbc_is_cbc",
    "Gost.C13_magma_cbc_dec_is_cbc",
    "Gost.C13_magma_cbc_roundtrip",
    "Gost.C13_magma_ecb_is_ecb",
    "Gost.C13_magma_ecb_roundtrip",
    "Gost.C13_kuz_cbc_is_cbc",
    "Gost.C13_kuz_cbc_dec_is_cbc",
    "Gost.C13_kuz_cbc_roundtrip",
    "Gost.C13_kuz_ecb_is_ecb",
    "Gost.C13_kuz_ecb_roundtrip"
   ],
   "note": ""
  },
  {
   "property": "C14",
   "status": "proved",
   "theorems": [
    "Gost.C14_magma_ctr_keystream",
    "Gost.C14_magma_ctr_roundtrip",
    "Gost.C14_kuz_ctr_keystream",
    "Gost.C14_kuz_ctr_roundtrip"
   ],
   "note": ""
  },
  {
   "property": "C15",
   "status": "proved",
   "theorems": [
    "Gost.C15_magma_acpkm_keystream",
    "Gost.C15_magma_acpkm_default",
    "Gost.C15_magma_section_zero",
    "Gost.C15_magma_acpkm_roundtrip",
    "Gost.C15_kuz_acpkm_keystream",
    "Gost.C15_kuz_acpkm_default",
    "Gost.C15_kuz_section_zero",
    "Gost.C15_kuz_acpkm_roundtrip"
   ],
   "note": ""
  },
  {
   "property": "C16",
   "status": "proved",
   "theorems": [
    "Gost.C16_ofb_keystream",
    "Gost.C16_ofb_chunking",
    "Gost.C16_ofb_roundtrip",
    "Gost.C16_cfb_enc",
    "Gost.C16_cfb_dec",
    "Gost.C16_cfb_chunking",
    "Gost.C16_cfb_roundtrip"
   ],
   "note": ""
  },
  {
   "property": "C17",
   "status": "partial",
   "theorems": [
    "Gost.C17_kuz_cbc_reinit",
    "Gost.C17_kuz_ofb_reinit_partial",
    "Gost.C17_kuz_ofb_reinit_false",
    "Gost.C17_kuz_cfb_reinit_false",
    "Gost.C17_kuz_ctr_reinit_actual",
    "Gost.C17_kuz_ctr_reinit_partial",
    "Gost.C17_kuz_ctr_reinit_false",
    "Gost.C17_cnt_reinit_false",
    "Gost.C17_cfb_reinit_false",
    "Gost.C17_magma_ctr_reinit_false",
    "Gost.C17_cnt_reinit_partial",
    "Gost.C17_cbc_reinit"
   ],
   "note": "False of the code for GOST 28147-89 CNT and CFB, Magma CTR and Kuznyechik CTR, OFB and CFB (the init callbacks leave num, the meshing counter and/or the counter half of the IV buffer as they were): the _false theorems give histories. Proved for GOST 28147-89 CBC and Kuznyechik CBC; partial theorems say when it holds for the others; C17_kuz_ctr_reinit_actual states what re-initialisation does."
  },
  {
   "property": "C18",
   "status": "partial",
   "theorems": [
    "Gost.C18_mac_any_chunking_partial",
    "Gost.C18_mac_single_chunk_partial",
    "Gost.C18_mac_exact_actual",
    "Gost.C18_mac_any_chunking_false",
    "Gost.C18_needs_key",
    "Gost.C18_size_range"
   ],
   "note": "False of the code for messages of exactly 8 bytes delivered by more than one update call (C18_mac_any_chunking_false: 4+4 bytes against 8 bytes at once); proved for every other length and every chunking, and for a single call of any length; C18_mac_exact_actual gives the MAC the code computes for every message and every chunking."
  },
  {
   "property": "C19",
   "status": "proved",
   "theorems": [
    "Gost.C19_streaming_mac_equals_oneshot",
    "Gost.C19_chunked_mac_equals_oneshot"
   ],
   "note": ""
  },
  {
   "property": "C20",
   "status": "partial",
   "theorems": [
    "Gost.C20_truncation_partial",
    "Gost.C20_truncation_false",
    "Gost.C20_truncation_actual"
   ],
   "note": "The property is false of the code when nbits is not a multiple of 8: get_mac computes the mask as (1 < rembits) - 1 instead of (1 << rembits) - 1, so the partial byte is zeroed (rembits >= 2) or kept whole (rembits = 1). C20_truncation_false gives a witness, C20_truncation_actual states what the code does, C20_truncation_partial proves the property for whole bytes."
  },
  {
   "property": "C21",
   "status": "proved",
   "theorems": [
    "Gost.C21_omac_acpkm_is_standard",
    "Gost.C21_omac_acpkm_default",
    "Gost.C21_omac_acpkm_chunking",
    "Gost.C21_omac_acpkm_errors",
    "Gost.C21_bad_T_refused_actual"
   ],
   "note": ""
  },
  {
   "property": "C22",
   "status": "proved",
   "theorems": [
    "Gost.C22_gf64_mul_is_product",
    "Gost.C22_gf128_mul_is_product",
    "Gost.C22_gf64_mul_laws",
    "Gost.C22_gf128_mul_laws"
   ],
   "note": ""
  },
  {
   "property": "C23",
   "status": "partial",
   "theorems": [
    "Gost.C23_round_trip_partial",
    "Gost.C23_round_trip_false"
   ],
   "note": "False of the code when the decrypting side makes no AAD update call (C23_round_trip_false): gost_mgm128_decrypt, unlike encrypt, does not compute the initial counter block, so decryption then starts from whatever the context holds. C23_round_trip_partial proves the round trip for every key, nonce, AAD chunking and data chunking when at least one AAD update (possibly empty) is made before decryption."
  },
  {
   "property": "C24",
   "status": "proved",
   "theorems": [
    "Gost.C24_encrypt_is_standard",
    "Gost.C24_chunking",
    "Gost.C24_encrypt_new_nonce"
   ],
   "note": ""
  },
  {
   "property": "C25",
   "status": "partial",
   "theorems": [
    "Gost.C25_encrypt_call_sequence",
    "Gost.C25_decrypt_call_sequence",
    "Gost.C25_length_block_partial",
    "Gost.C25_length_block_false",
    "Gost.C25_aad_after_empty_data",
    "Gost.C25_set_tag_accepts",
    "Gost.C25_get_tag_accepts"
   ],
   "note": "Call-sequence rules and length limits are proved; the length block is the standard one below the 32-bit (Magma) / 64-bit (Kuznyechik) limits (C25_length_block_partial), and wrong for lengths at the exact accepted limit (C25_length_block_false)."
  },
  {
   "property": "C26",
   "status": "proved",
   "theorems": [
    "Gost.C26_start_blocks",
    "Gost.C26_nonce_bit_ignored"
   ],
   "note": ""
  },
  {
   "property": "C27",
   "status": "partial",
   "theorems": [
    "Gost.C27_acpkm_omac_tag_check",
    "Gost.C27_acpkm_omac_tag_attribute",
    "Gost.C27_mgm_tag_check_partial",
    "Gost.C27_mgm_tag_check_actual",
    "Gost.C27_mgm_no_tag_refused",
    "Gost.C27_mgm_stale_tag"
   ],
   "note": "CTR-ACPKM-OMAC: proved as an equivalence for every context history, key, IV, section size, input and tag (C27_acpkm_omac_*). MGM: proved as an equivalence when an AAD update was made; C27_mgm_tag_check_actual states what the code compares otherwise."
  },
  {
   "property": "C28",
   "status": "proved",
   "theorems": [
    "Gost.C28_streebog_any_split",
    "Gost.C28_fork"
   ],
   "note": ""
  },
  {
   "property": "C29",
   "status": "proved",
   "theorems": [
    "Gost.C29_add512_exact",
    "Gost.C29_add512_addcarry_exact",
    "Gost.C29_add512_bytes_exact"
   ],
   "note": ""
  },
  {
   "property": "C30",
   "status": "proved",
   "theorems": [
    "Gost.C30_streebog512_is_standard",
    "Gost.C30_streebog256_is_standard",
    "Gost.C30_compression",
    "Gost.C30_digest_length"
   ],
   "note": ""
  },
  {
   "property": "C31",
   "status": "proved",
   "theorems": [
    "Gost.C31_digest_is_standard",
    "Gost.C31_any_substitution_is_standard",
    "Gost.C31_gost94_any_split",
    "Gost.C31_finish_keeps_context",
    "Gost.C31_digest_length"
   ],
   "note": ""
  },
  {
   "property": "C32",
   "status": "proved",
   "theorems": [
    "Gost.C32_add_blocks_exact",
    "Gost.C32_checksum_mod_2_256",
    "Gost.C32_context_checksum"
   ],
   "note": ""
  },
  {
   "property": "C33",
   "status": "proved",
   "theorems": [
    "Gost.C33_export_is_kexp15",
    "Gost.C33_export_small_buffer",
    "Gost.C33_import_export",
    "Gost.C33_import_iff_export",
    "Gost.C33_failure_untouched",
    "Gost.C33_short_mac_refused",
    "Gost.C33_magma_trailing_ignored",
    "Gost.C33_empty_blob_reads_stack"
   ],
   "note": ""
  },
  {
   "property": "C34",
   "status": "proved",
   "theorems": [
    "Gost.C34_diversify_is_rfc4357",
    "Gost.C34_wrap_is_rfc4357",
    "Gost.C34_unwrap_iff_mac",
    "Gost.C34_unwrap_wrap",
    "Gost.C34_accepted_only_if_wrapping"
   ],
   "note": ""
  },
  {
   "property": "C35",
   "status": "proved",
   "theorems": [
    "Gost.C35_is_kdf_tree",
    "Gost.C35_refused",
    "Gost.C35_block",
    "Gost.C35_inputs_distinct",
    "Gost.C35_counter_wraps"
   ],
   "note": ""
  },
  {
   "property": "C36",
   "status": "proved",
   "theorems": [
    "Gost.C36_is_tlstree",
    "Gost.C36_seeds_iff_window",
    "Gost.C36_same_window_same_key",
    "Gost.C36_different_window_collision"
   ],
   "note": ""
  },
  {
   "property": "C37",
   "status": "proved",
   "theorems": [
    "Gost.C37_decrement",
    "Gost.C37_kuz_adjust",
    "Gost.C37_magma_adjust",
    "Gost.C37_magma_record",
    "Gost.C37_kuz_record",
    "Gost.C37_magma_record_roundtrip",
    "Gost.C37_kuz_record_roundtrip",
    "Gost.C37_refused"
   ],
   "note": ""
  },
  {
   "property": "C38",
   "status": "proved",
   "theorems": [
    "Gost.C38_verify_accepts_signed",
    "Gost.C38_verify_accepts_exactly_signable",
    "Gost.C38_verify_is_standard",
    "Gost.C38_keygen"
   ],
   "note": ""
  },
  {
   "property": "C39",
   "status": "proved",
   "theorems": [
    "Gost.C39_out_of_range_rejected",
    "Gost.C39_signature_in_range",
    "Gost.C39_zero_digest_is_one"
   ],
   "note": ""
  },
  {
   "property": "C40",
   "status": "proved",
   "theorems": [
    "Gost.C40_vko_is_standard",
    "Gost.C40_vko_symmetric",
    "Gost.C40_vko_fails_iff",
    "Gost.C40_vko_small_subgroup",
    "Gost.C40_vko_small_order_refused"
   ],
   "note": ""
  },
  {
   "property": "C41",
   "status": "proved",
   "theorems": [
    "Gost.C41_keg_multiplier",
    "Gost.C41_keg_multiplier_nonzero",
    "Gost.C41_keg_512",
    "Gost.C41_keg_256",
    "Gost.C41_keg_agreement",
    "Gost.C41_zero_ukm_not_one"
   ],
   "note": ""
  },
  {
   "property": "C42",
   "status": "proved",
   "theorems": [
    "Gost.C42_store_bignum",
    "Gost.C42_store_then_read",
    "Gost.C42_packed_layout",
    "Gost.C42_unpack_pack",
    "Gost.C42_pack_unpack",
    "Gost.C42_signed_bytes_verify",
    "Gost.C42_trailing_byte_ignored",
    "Gost.C42_padded_signature_same",
    "Gost.C42_priv_encode",
    "Gost.C42_priv_decode_encode",
    "Gost.C42_priv_decode_encode_wrapped",
    "Gost.C42_pub_decode_encode"
   ],
   "note": ""
  },
  {
   "property": "C43",
   "status": "proved",
   "theorems": [
    "Gost.C43_unmask_product",
    "Gost.C43_masked_key_decodes",
    "Gost.C43_wrapped_masked_key",
    "Gost.C43_other_blobs_refused"
   ],
   "note": ""
  },
  {
   "property": "C44",
   "status": "proved",
   "theorems": [
    "Gost.C44_rwnaf",
    "Gost.C44_wnaf",
    "Gost.C44_256",
    "Gost.C44_512"
   ],
   "note": ""
  },
  {
   "property": "C45",
   "status": "proved",
   "theorems": [
    "Gost.C45_mul_g",
    "Gost.C45_mul",
    "Gost.C45_mul_two",
    "Gost.C45_ed_mul_g",
    "Gost.C45_ed_mul",
    "Gost.C45_ed_mul_two",
    "Gost.C45_ed_mul_two_subgroup",
    "Gost.C45_two_reports_order2_as_infinity",
    "Gost.C45_every_curve",
    "Gost.C45_engine_accepts_signed",
    "Gost.C45_engine_verifies_standard",
    "Gost.C45_engine_public",
    "Gost.C45_engine_keygen",
    "Gost.C45_engine_vko_symmetric",
    "Gost.C45_engine_vko_standard",
    "Gost.C45_engine_keg_agreement",
    "Gost.C45_group_sound",
    "Gost.C45_ed_group_sound"
   ],
   "note": "Proved for the eight curve files with their limb arithmetic, constants and tables (C45_every_curve) and for the signature and key agreement code over them (C45_engine_*). The curve without a file (tc26-512 test) uses OpenSSL's EC_POINT_mul, which is not modelled. On the Edwards curves a sum equal to the point of order 2 is reported as infinity (C45_two_reports_order2_as_infinity); this cannot happen for keys in the group of order q."
  },
  {
   "property": "C46",
   "status": "proved",
   "theorems": [
    "Gost.C46_all_curves_standard",
    "Gost.C46_nid_selects",
    "Gost.C46_aliases",
    "Gost.C46_selected_standard",
    "Gost.C46_fill_any_history",
    "Gost.C46_cofactor_clears",
    "Gost.C46_hasse"
   ],
   "note": ""
  },
  {
   "property": "C47",
   "status": "partial",
   "theorems": [
    "Gost.C47_kuznyechik",
    "Gost.C47_kuznyechik_no_params",
    "Gost.C47_magma_false",
    "Gost.C47_magma_partial",
    "Gost.C47_gost89_partial",
    "Gost.C47_gost89_false"
   ],
   "note": "Proved for Kuznyechik (equivalence, state unchanged on failure). False for Magma: magma_get_asn1_parameters compares the callee's result with < 0 although it signals failure with 0, so malformed parameters are reported as success with a zero IV (C47_magma_false). GOST 28147-89: proved for parameters that decode; undecodable ones dereference NULL (C47_gost89_false)."
  },
  {
   "property": "C48",
   "status": "partial",
   "theorems": [
    "Gost.C48_kuznyechik",
    "Gost.C48_magma",
    "Gost.C48_gost89",
    "Gost.C48_gost89_cnt_false"
   ],
   "note": "Proved for Kuznyechik, Magma CTR ciphers and GOST 28147-89 CFB/CBC. False for the GOST 28147-89 CNT ciphers: their init records no parameter set, so the stored parameters can never be loaded (C48_gost89_cnt_false). OpenSSL's DER codec is abstract."
  },
  {
   "property": "C49",
   "status": "partial",
   "theorems": [
    "Gost.C49_kuz_section_size",
    "Gost.C49_cnt_params_locked",
    "Gost.C49_cfb_params_locked",
    "Gost.C49_cbc_params_locked_false",
    "Gost.C49_cbc_sbox_change_effective",
    "Gost.C49_magma_section_locked",
    "Gost.C49_magma_section_locked_false"
   ],
   "note": "Proved for GOST 28147-89 CFB and CNT (any history with data) and Magma up to 2^32-8 bytes. False for GOST 28147-89 CBC (its byte counter never moves) and for Magma after exactly 2^32 bytes: _false theorems. Kuznyechik: the section-size control accepts exactly non-zero multiples of 16 on the ACPKM ciphers."
  },
  {
   "property": "C50",
   "status": "proved",
   "theorems": [
    "Gost.C50_incomplete",
    "Gost.C50_any_split",
    "Gost.C50_unwraps_export",
    "Gost.C50_overflow_refused",
    "Gost.C50_oversize_ignored",
    "Gost.C50_bad_mac_reports_zero",
    "Gost.C50_encrypt_refused"
   ],
   "note": ""
  },
  {
   "property": "C51",
   "status": "proved",
   "theorems": [
    "Gost.C51_engine_parameters",
    "Gost.C51_lookup_stable",
    "Gost.C51_out_of_range"
   ],
   "note": ""
  },
  {
   "property": "C52",
   "status": "partial",
   "theorems": [
    "Gost.C52_pkey_methods_partial",
    "Gost.C52_pkey_methods_false",
    "Gost.C52_unlisted_refused",
    "Gost.C52_ciphers",
    "Gost.C52_digests_and_distinct",
    "Gost.C52_cipher_sizes",
    "Gost.C52_digest_sizes"
   ],
   "note": "Proved for ciphers, digests and all other key methods. False for the listed Magma CTR-ACPKM-OMAC NID: the lookup returns success with a NULL method after any history (C52_pkey_methods_false)."
  },
  {
   "property": "C53",
   "status": "partial",
   "theorems": [
    "Gost.C53_gostsum_hash_any_split",
    "Gost.C53_gost12sum_hash_any_split",
    "Gost.C53_gostsum_output",
    "Gost.C53_gostsum_check_partial",
    "Gost.C53_gost12sum_output",
    "Gost.C53_gost12sum_check_partial",
    "Gost.C53_gostsum_round_trip_partial",
    "Gost.C53_gost12sum_round_trip_partial",
    "Gost.C53_gostsum_long_name_false",
    "Gost.C53_gostsum_malformed_line_ends_check",
    "Gost.C53_gost12sum_long_name_false",
    "Gost.C53_empty_line_out_of_bounds",
    "Gost.C53_gostsum_checksum_lines",
    "Gost.C53_gost12sum_checksum_lines"
   ],
   "note": "Proved for the digest output, any read splitting, and the check/round trip for every name within the buffer limit. False for the longest names (4095 characters for gostsum, over 4029 / 3965 for gost12sum), which the fgets buffer of PATH_MAX bytes misparses; gostsum -c stops silently with exit status 0 at the first malformed line; an empty line is read out of bounds: the _false and actual-behaviour theorems."
  },
  {
   "property": "C54",
   "status": "proved",
   "theorems": [
    "Gost.C54_block_cipher_is_standard",
    "Gost.C54_mac_step_is_standard"
   ],
   "note": ""
  },
  {
   "property": "C55",
   "status": "partial",
   "theorems": [
    "Gost.C55_acpkm_omac_actual",
    "Gost.C55_acpkm_omac_partial",
    "Gost.C55_kuz_ctr",
    "Gost.C55_kuz_acpkm_partial",
    "Gost.C55_kuz_acpkm_actual",
    "Gost.C55_magma_partial",
    "Gost.C55_magma_false",
    "Gost.C55_gost89_cfb",
    "Gost.C55_gost89_cbc",
    "Gost.C55_magma_mgm_false",
    "Gost.C55_magma_mgm_receiver_false"
   ],
   "note": "Proved for Kuznyechik CTR, GOST 28147-89 CFB and CBC at any length. False for Magma CTR beyond 8192 bytes and Magma CTR-ACPKM beyond 1024 bytes (C55_magma_false): storing parameters changes the sender's section size, the receiver's second init resets it to the default. Kuznyechik CTR-ACPKM: proved up to 4096 bytes; C55_kuz_acpkm_actual characterises the rest. CTR-ACPKM-OMAC: proved if message and tag fit one section of the receiver; C55_acpkm_omac_actual states what happens in general. Magma MGM inherits the ASN.1 methods of Magma CTR: its parameters do not carry the nonce and report success (C55_magma_mgm_false, C55_magma_mgm_receiver_false)."
  },
  {
   "property": "C56",
   "status": "proved",
   "theorems": [
    "Gost.C56_numbers",
    "Gost.C56_CryptoPro_A_64",
    "Gost.C56_CryptoPro_A_32",
    "Gost.C56_CryptoPro_B_64",
    "Gost.C56_CryptoPro_B_32",
    "Gost.C56_CryptoPro_C_64",
    "Gost.C56_CryptoPro_C_32",
    "Gost.C56_Test_64",
    "Gost.C56_Test_32",
    "Gost.C56_tc26_256_paramSetA_64",
    "Gost.C56_tc26_256_paramSetA_32",
    "Gost.C56_tc26_512_paramSetA_64",
    "Gost.C56_tc26_512_paramSetA_32",
    "Gost.C56_tc26_512_paramSetB_64",
    "Gost.C56_tc26_512_paramSetB_32",
    "Gost.C56_tc26_512_paramSetC_64",
    "Gost.C56_tc26_512_paramSetC_32"
   ],
   "note": "Code generated by fiat-crypto, translated statement by statement by tools/fiatparse.py (trusted, like the other transcriptions). The code feeds opposites, whose limbs exceed the bounds documented in the comments of the C functions, to additions and multiplications; the theorems hold for the larger bounds."
  },
  {
   "property": "C57",
   "status": "proved",
   "theorems": [
    "Gost.C57_public_key_roundtrip",
    "Gost.C57_decoded_public_on_curve",
    "Gost.C57_infinity_not_encoded",
    "Gost.C57_private_key_roundtrip",
    "Gost.C57_digest_parameter",
    "Gost.C57_parameters_roundtrip",
    "Gost.C57_copied_parameters_equal",
    "Gost.C57_generated_key_roundtrip",
    "Gost.C57_keygen_failure_is_success",
    "Gost.C57_aliases_compare_different",
    "Gost.C57_first_octet_ignored",
    "Gost.C57_unreduced_accepted",
    "Gost.C57_size_mismatch_accepted"
   ],
   "note": "The ASN.1 templates of OpenSSL are a parameter (KeyDer) with its soundness as hypothesis; DerKey.coder is a concrete DER coder shown to meet it. Findings: key generation reports success without a key when the random source fails; the several names of one curve compare as different; the first octet of the BIT STRING content is not checked; coordinates not reduced modulo p are accepted; a 256-bit key type with a 512-bit curve is accepted."
  },
  {
   "property": "C58",
   "status": "proved",
   "theorems": [
    "Gost.C58_cp_roundtrip",
    "Gost.C58_cp_static_key",
    "Gost.C58_cp_zero_ukm_refused",
    "Gost.C58_cp_accepts_only_wrapped",
    "Gost.C58_2018_roundtrip",
    "Gost.C58_2018_needs_2012",
    "Gost.C58_2018_accepts_only_exported",
    "Gost.C58_other_cipher_refused",
    "Gost.C58_receive_buffer",
    "Gost.C58_2018_reject_untouched",
    "Gost.C58_cp_small_buffer_double_free",
    "Gost.C58_cp_undecodable_key_ignored",
    "Gost.C58_cp_bad_length_aborts",
    "Gost.C58_cp_reject_writes_key",
    "Gost.C58_cp_key_truncated",
    "Gost.C58_2018_stale_ukm",
    "Gost.C58_2018_long_ukm_ignored"
   ],
   "note": "OpenSSL's DER functions for the two structures are a parameter (KtDer) with its soundness as hypothesis; DerKt.coder is a concrete coder shown to meet it. The memory handling is modelled only where it is wrong. Findings (C58_cp_small_buffer_double_free, C58_cp_undecodable_key_ignored, C58_cp_bad_length_aborts, C58_cp_reject_writes_key, C58_cp_key_truncated, C58_2018_stale_ukm, C58_2018_long_ukm_ignored)."
  },
  {
   "property": "C59",
   "status": "proved",
   "theorems": [
    "Gost.C59_derive_last_settings",
    "Gost.C59_size_is_length",
    "Gost.C59_parties_agree",
    "Gost.C59_vko_is_standard",
    "Gost.C59_derive_any_calls",
    "Gost.C59_no_peer",
    "Gost.C59_text_all_or_nothing",
    "Gost.C59_paramset_names",
    "Gost.C59_paramset_length",
    "Gost.C59_identifiers_refused",
    "Gost.C59_vko_not_a_number",
    "Gost.C59_null_text_crashes",
    "Gost.C59_vko_number",
    "Gost.C59_other_curve_refused"
   ],
   "note": "OPENSSL_hexstr2buf and OBJ_txt2nid are arbitrary functions. Findings (C59_identifiers_refused, C59_vko_not_a_number, C59_null_text_crashes)."
  },
  {
   "property": "C60",
   "status": "proved",
   "theorems": [
    "Gost.C60_ktri_roundtrip",
    "Gost.C60_ktri_refused",
    "Gost.C60_ktri_unknown_algorithm",
    "Gost.C60_signer_digest",
    "Gost.C60_kari_recipient",
    "Gost.C60_kari_short_ukm",
    "Gost.C60_kari_bad_key_freed_twice",
    "Gost.C60_kari_no_ukm_crashes",
    "Gost.C60_named_agreement"
   ],
   "note": "OpenSSL's CMS functions are the specification's ktriSend, ktriReceive and kariDecrypt; DER coders as in C58. Findings (C60_kari_short_ukm, C60_kari_bad_key_freed_twice, C60_kari_no_ukm_crashes)."
  },
  {
   "property": "C61",
   "status": "proved",
   "theorems": [
    "Gost.C61_last_settings",
    "Gost.C61_mac_through_key",
    "Gost.C61_omac_is_standard",
    "Gost.C61_mac89_is_standard",
    "Gost.C61_keygen_needs_key",
    "Gost.C61_new_mac_key",
    "Gost.C61_refused_no_effect",
    "Gost.C61_text_size",
    "Gost.C61_text_size_wraps",
    "Gost.C61_kuznyechik_text_size",
    "Gost.C61_kuznyechik_key_magma_digest",
    "Gost.C61_raw_key_ignores_paramset"
   ],
   "note": "The GOST 28147-89 MAC of exactly eight bytes given in several chunks is excepted in C61_mac89_is_standard (C18's finding). EVP_PKEY_new_mac_key and EVP_DigestSign* of libcrypto, strtol and OPENSSL_hexstr2buf are modelled as stated in Model/MacPkey.lean. Findings (C61_text_size_wraps, C61_kuznyechik_text_size, C61_kuznyechik_key_magma_digest, C61_raw_key_ignores_paramset)."
  },
  {
   "property": "C62",
   "status": "proved",
   "theorems": [
    "Gost.C62_encrypt",
    "Gost.C62_roundtrip",
    "Gost.C62_magma_zero_seed",
    "Gost.C62_new_iv_keeps_mac",
    "Gost.C62_no_key_crashes",
    "Gost.C62_copy"
   ],
   "note": "Findings: a zero seed drawn on a Magma context without application data (C62_magma_zero_seed), a new IV without a key keeps the MAC of the earlier data (C62_new_iv_keeps_mac), data without a key crash (C62_no_key_crashes). KDF_TREE's HMAC and the CMAC are OpenSSL's, uninterpreted as elsewhere; attributes are reduced to their octet string."
  },
  {
   "property": "C63",
   "status": "proved",
   "theorems": [
    "Gost.C63_mac",
    "Gost.C63_sizes",
    "Gost.C63_is_standard",
    "Gost.C63_written_length",
    "Gost.C63_bad_size_accepted",
    "Gost.C63_sections",
    "Gost.C63_sections_with_key_argument_crash",
    "Gost.C63_sections_with_key_argument_actual",
    "Gost.C63_dup_actual",
    "Gost.C63_needs_key",
    "Gost.C63_second_final_actual",
    "Gost.C63_key_length",
    "Gost.C63_empty_key_crashes",
    "Gost.C63_refused_key_actual",
    "Gost.C63_init_does_not_restart"
   ],
   "note": "EVP_DigestInit_ex, EVP_MD_CTX_ctrl, EVP_DigestUpdate, EVP_DigestFinal_ex and EVP_MD_CTX_copy are modelled as stated in Model/ProvMac.lean. The GOST 28147-89 MAC of exactly eight bytes given in several pieces is C18's exception (mac89Blocks). Sizes that are no length of the MAC are characterised by provEffSize. Findings (C63_bad_size_accepted, C63_sections_with_key_argument_crash, C63_sections_with_key_argument_actual, C63_second_final_actual, C63_empty_key_crashes, C63_refused_key_actual, C63_init_does_not_restart; C63_dup_actual: a duplicate has the default size)."
  },
  {
   "property": "C64",
   "status": "proved",
   "theorems": [
    "Gost.C64_digests",
    "Gost.C64_params",
    "Gost.C64_long_piece_cut",
    "Gost.C64_long_piece_collision",
    "Gost.C64_long_piece_overrun"
   ],
   "note": "EVP_DigestInit_ex, EVP_DigestUpdate, EVP_DigestFinal and EVP_MD_CTX_copy are modelled as stated in Model/ProvDigest.lean. Findings: the length of a piece becomes an int, so that a piece of 2^32 bytes is ignored (C64_long_piece_cut, C64_long_piece_collision) and one of 2^31 bytes reads out of bounds (C64_long_piece_overrun)."
  },
  {
   "property": "C65",
   "status": "proved",
   "theorems": [
    "Gost.C65_omac_history_by_value",
    "Gost.C65_omac_acpkm_history_by_value",
    "Gost.C65_omac_no_leak",
    "Gost.C65_omac_acpkm_no_leak",
    "Gost.C65_omac_contexts_independent",
    "Gost.C65_omac_acpkm_contexts_independent",
    "Gost.C65_omac_second_key_leaks",
    "Gost.C65_omac_acpkm_second_key_leaks",
    "Gost.C65_omac_key_after_final_leaks"
   ],
   "note": "Heap model of the digest data of gost_omac.c and gost_omac_acpkm.c under the EVP digest functions, refined to contexts holding their state by value. The exceptions to the no-leak part are stated and shown to leak (second key, key after final)."
  },
  {
   "property": "C66",
   "status": "proved",
   "theorems": [
    "Gost.C66_gost_cbc",
    "Gost.C66_magma_cbc",
    "Gost.C66_magma_ecb",
    "Gost.C66_kuz_ecb",
    "Gost.C66_kuz_cbc",
    "Gost.C66_roundtrip",
    "Gost.C66_gost_cnt",
    "Gost.C66_magma_ctr",
    "Gost.C66_magma_ctr_acpkm",
    "Gost.C66_kuz_streams",
    "Gost.C66_kuz_ctr_acpkm",
    "Gost.C66_gost_cfb",
    "Gost.C66_parameters_need_a_cipher",
    "Gost.C66_refused",
    "Gost.C66_piece_too_long"
   ],
   "note": "EVP_CipherInit_ex, EVP_CipherUpdate, EVP_CipherFinal and the block buffering of OpenSSL 3.0 are modelled as stated in Model/ProvCipher.lean. Not covered: the two MGM and the two CTR-ACPKM-OMAC ciphers of the table, alg_id_param, overlapping buffers; re-initialised stream contexts are the subject of C17. Pieces of 2^31 bytes or more: C66_piece_too_long."
  },
  {
   "property": "C67",
   "status": "partial",
   "theorems": [
    "Gost.C67_copies_independent_partial",
    "Gost.C67_no_copy_by_value",
    "Gost.C67_no_leak",
    "Gost.C67_kuznyechik_copy_cannot_be_freed",
    "Gost.C67_copy_follows_original",
    "Gost.C67_copy_dangles",
    "Gost.C67_respecting_history",
    "Gost.C67_copies_independent_false"
   ],
   "note": "The code violates the claim: EVP_CIPHER_CTX_copy copies the pointers to the original's key schedule and IV buffer. Proved: the claim for all histories without copies and for all histories with copies that respect an explicit borrowing discipline (C67_copies_independent_partial); no leaks in any history; and what happens otherwise, for all histories: the copy follows the original's new key, dangles when the original is freed, and for Kuznyechik cannot be freed at all. C67_copies_independent_false is the counterexample to the full claim."
  },
  {
   "property": "C68",
   "status": "proved",
   "theorems": [
    "Gost.C68_copies_independent",
    "Gost.C68_copy_is_snapshot"
   ],
   "note": "Refinement of a by-value specification for all histories, with undefined behaviour exactly where the specification has it (C68_copies_independent); a successful copy is a snapshot whatever is done with the other contexts afterwards (C68_copy_is_snapshot). OpenSSL's EVP_CIPHER_CTX_copy/reset/free and EVP_MD_CTX_copy are modelled from their documentation; the contents of a digest context are by value (its own pointer is C65)."
  },
  {
   "property": "C69",
   "status": "partial",
   "theorems": [
    "Gost.C69_leak_exact",
    "Gost.C69_all_freed_partial",
    "Gost.C69_left_over",
    "Gost.C69_rekey_leaks",
    "Gost.C69_all_freed_false",
    "Gost.C69_failed_copy_leaks",
    "Gost.C69_respecting_history"
   ],
   "note": "The code violates the claim: initialising a keyed context with a new key overwrites the pointer to its digest context, and copying a context without a key loses the digest context allocated for the copy. Proved: the exact number of lost digest contexts after every history (C69_leak_exact, C69_left_over); none is lost by histories without those two calls (C69_all_freed_partial); the two leaks for every key and both ciphers (C69_rekey_leaks, C69_failed_copy_leaks); C69_all_freed_false is the counterexample to the full claim."
  },
  {
   "property": "C70",
   "status": "partial",
   "theorems": [
    "Gost.C70_encrypt_is_standard",
    "Gost.C70_decrypt_partial",
    "Gost.C70_decrypt_actual",
    "Gost.C70_round_trip_partial",
    "Gost.C70_before_init",
    "Gost.C70_too_long_refused",
    "Gost.C70_set_tag_accepts",
    "Gost.C70_no_tag_refused"
   ],
   "note": "The code violates the claim for decryptions without an update with associated data (C70_decrypt_actual; C23_round_trip_false is the counterexample). Proved: encryption in full (C70_encrypt_is_standard); decryption and round trip with at least one update with associated data (C70_decrypt_partial, C70_round_trip_partial); what is compared in every case (C70_decrypt_actual); no acceptance without a tag (C70_no_tag_refused); parameters and lengths (C70_before_init, C70_too_long_refused, C70_set_tag_accepts)."
  },
  {
   "property": "C71",
   "status": "partial",
   "theorems": [
    "Gost.C71_nonce_actual",
    "Gost.C71_nonce_length_partial",
    "Gost.C71_nonce_length_false",
    "Gost.C71_magma_long_nonces_collide",
    "Gost.C71_provider"
   ],
   "note": "The code violates the claim: every length from 1 to 16 is accepted, and always as many bytes as a block has are used. Proved: the block length is honoured (C71_nonce_length_partial); no other accepted length is, for every context of both ciphers (C71_nonce_length_false); exactly which bytes are used (C71_nonce_actual); Magma with 16-byte nonces: nonces that agree in 8 bytes give the same ciphertext and tag (C71_magma_long_nonces_collide); the same through the provider (C71_provider)."
  },
  {
   "property": "C72",
   "status": "proved",
   "theorems": [
    "Gost.C72_irreducible",
    "Gost.C72_gf64_field",
    "Gost.C72_gf128_field",
    "Gost.C72_aad_block",
    "Gost.C72_data_block",
    "Gost.C72_zero_extension",
    "Gost.C72_one_zero_coefficient",
    "Gost.C72_changed_block_refused"
   ],
   "note": "Irreducibility is proved from the order of X (2^64-1 and 2^128-1, factored; the 47-bit factor by Pocklington), with powers evaluated by the kernel. API level: C72_changed_block_refused (through C24 and C27; the decrypting side makes at least one call with associated data, the case excluded is the one C27 shows to be broken anyway)."
  },
  {
   "property": "C73",
   "status": "proved",
   "theorems": [
    "Gost.C73_gost_cbc",
    "Gost.C73_gost_cfb",
    "Gost.C73_gost_cnt",
    "Gost.C73_magma_ecb",
    "Gost.C73_magma_cbc",
    "Gost.C73_magma_ctr",
    "Gost.C73_kuz_ecb",
    "Gost.C73_kuz_cbc",
    "Gost.C73_kuz_ctr",
    "Gost.C73_kuz_ctracpkm",
    "Gost.C73_kuz_ofb",
    "Gost.C73_kuz_cfb",
    "Gost.C73_magma_ctr_acpkm_omac",
    "Gost.C73_kuz_ctr_acpkm_omac",
    "Gost.C73_mgm",
    "Gost.C73_in_place",
    "Gost.C73_shape_cnt",
    "Gost.C73_shape_param",
    "Gost.C73_shape_magma",
    "Gost.C73_shape_kept_blocks",
    "Gost.C73_shape_kept_blocks_kuz",
    "Gost.C73_shape_kept",
    "Gost.C73_shape_kept_kuz",
    "Gost.C73_shape_kuz"
   ],
   "note": "The callbacks are written again on memory with two pointers (Model/Buffers.lean), statement by statement, and shown equal to the byte-level models of C01-C27, C62, whose correctness is proved there. The context and the local variables lie outside the two buffers; the block functions read their block before they write it. C73_shape_*: contexts made by the init functions meet the hypotheses and every call keeps them."
  },
  {
   "property": "C74",
   "status": "partial",
   "theorems": [
    "Gost.C74_right_curve",
    "Gost.C74_no_fault",
    "Gost.C74_name_partial",
    "Gost.C74_wait_free",
    "Gost.C74_leak_bounded",
    "Gost.C74_undisturbed",
    "Gost.C74_name_false",
    "Gost.C74_leak_false"
   ],
   "note": "False of the code in two points, the rest is proved: a key may carry another name of its curve when threads use two names of one table entry at the same time (C74_name_false), and a group is leaked when two threads use a curve first at the same time (C74_leak_false). Proved for all schedules: the right curve (C74_right_curve), the right name when no entry is used under two names (C74_name_partial) or the call is not interrupted (C74_undisturbed), no NULL pointer (C74_no_fault), progress (C74_wait_free), at most one group per thread and entry (C74_leak_bounded). The model interleaves single accesses (sequential consistency); C gives unsynchronised accesses no meaning."
  },
  {
   "property": "C75",
   "status": "partial",
   "theorems": [
    "Gost.C75_warm_partial",
    "Gost.C75_after_startup_partial",
    "Gost.C75_environment_wins",
    "Gost.C75_first_lookup_false",
    "Gost.C75_double_free_false",
    "Gost.C75_set_false"
   ],
   "note": "False of the code: overlapping first lookups of a value from the environment (C75_first_lookup_false, C75_double_free_false) and a set during the use of a looked-up string (C75_set_false) touch freed memory. Proved for all schedules: after all parameters were looked up once, lookups are safe and right (C75_after_startup_partial, C75_warm_partial); results are those of the environment also with sets and cold lookups (C75_environment_wins)."
  },
  {
   "property": "C76",
   "status": "partial",
   "theorems": [
    "Gost.Life.C76_ciphers_fetchable_partial",
    "Gost.Life.C76_provider_table",
    "Gost.Life.C76_digests_and_macs_false",
    "Gost.Life.C76_digests_and_macs_found"
   ],
   "note": "False of the code for every digest and MAC (C76_digests_and_macs_false): their dispatch tables have no end entry. Proved for the ciphers and the provider's own table (C76_ciphers_fetchable_partial, C76_provider_table), and what is read instead for the others (C76_digests_and_macs_found)."
  },
  {
   "property": "C77",
   "status": "partial",
   "theorems": [
    "Gost.Life.C77_alone_safe_partial",
    "Gost.Life.C77_one_at_a_time_safe_partial",
    "Gost.Life.C77_one_at_a_time_frees_partial",
    "Gost.Life.C77_nothing_left_partial",
    "Gost.Life.C77_stale_error_handle_false",
    "Gost.Life.C77_double_free_false",
    "Gost.Life.C77_method_freed_false",
    "Gost.Life.C77_failed_load_false",
    "Gost.Life.C77_second_load_leaks_false"
   ],
   "note": "False of the code with two instances in one process: the error handle dangles, OIDs are freed twice, methods in use by another instance are freed (C77_*_false). Proved for all histories, whichever allocations fail, in which no instance is unloaded and no load fails while another is loaded (C77_alone_safe_partial), in particular one instance at a time (C77_one_at_a_time_safe_partial), with what is left allocated (C77_one_at_a_time_frees_partial)."
  },
  {
   "property": "C78",
   "status": "partial",
   "theorems": [
    "Gost.C78_gf64_mul",
    "Gost.C78_gf128_mul",
    "Gost.C78_mgm_length_block",
    "Gost.C78_be32",
    "Gost.C78_streebog",
    "Gost.C78_streebog_compression",
    "Gost.C78_tlstree_reversed_seeds",
    "Gost.C78_tlstree_first_window_partial",
    "Gost.C78_tlstree_later_records"
   ],
   "note": "False of the code for TLSTREE: a big-endian host passes the bytes of each seed in reverse order, so that from the second key window on the keys differ from those of RFC 9189 unless HMAC collides (C78_tlstree_later_records, C78_tlstree_reversed_seeds). Proved for everything else that is compiled differently, and for the first window (C78_tlstree_first_window_partial)."
  },
  {
   "property": "C79",
   "status": "proved",
   "theorems": [
    "Gost.C79_private_read_back",
    "Gost.C79_public_read_back",
    "Gost.C79_text_determines_key",
    "Gost.C79_public_hides_private",
    "Gost.C79_success"
   ],
   "note": "BN_print, BIO_indent and OBJ_nid2ln as documented; writing to the BIO does not fail."
  },
  {
   "property": "C80",
   "status": "partial",
   "theorems": [
    "Gost.C80_import_erased",
    "Gost.C80_export_erased",
    "Gost.C80_keg_erased",
    "Gost.C80_cp_decrypt_erased",
    "Gost.C80_cp_encrypt_erased",
    "Gost.C80_2018_erased",
    "Gost.C80_section_keys_erased",
    "Gost.C80_magma_cleanup",
    "Gost.C80_vko_point_left",
    "Gost.C80_cp_decrypt_context_left",
    "Gost.C80_cp_encrypt_context_left",
    "Gost.C80_kuznyechik_section_key_left",
    "Gost.C80_kuznyechik_cleanup_keeps_key",
    "Gost.C80_mac_key_left"
   ],
   "note": "False of the code in part: the freed buffer of VKO_compute_key holds the shared point (C80_vko_point_left), the cipher contexts of CryptoPro key transport stay on the stack and decrypt the message (C80_cp_decrypt_context_left, C80_cp_encrypt_context_left), a Kuznyechik section change leaves the new key on the stack (C80_kuznyechik_section_key_left), MAC keys stay in freed blocks (C80_mac_key_left). Proved on all paths for the buffers the code means to erase: shared keys, export keys, the plaintext of KImp15, KEG, key meshing, Magma ACPKM, CTR-ACPKM-OMAC keys, Magma and GOST 28147-89 contexts."
  },
  {
   "property": "C81",
   "status": "partial",
   "theorems": [
    "Gost.Life.C81_careful_safe_partial",
    "Gost.Life.C81_everything_freed",
    "Gost.Life.C81_names_resolve",
    "Gost.Life.C81_second_load_refused",
    "Gost.Life.C81_load_succeeds",
    "Gost.Life.C81_name_after_unload_false",
    "Gost.Life.C81_reload_false",
    "Gost.Life.C81_failed_load_false",
    "Gost.Life.C81_digest_memory_crash_false"
   ],
   "note": "False of the code outside careful histories: names of an unloaded engine stand for freed methods (C81_name_after_unload_false), a freed ENGINE stays in libcrypto's tables after an unload or a failed load and is used by the next default choice (C81_reload_false, C81_failed_load_false), lack of memory for a digest method crashes the load (C81_digest_memory_crash_false). Proved for all careful histories and all allocation failures: safety, no leaks beyond one object per failed load, refusal of a second load, names resolve, loading succeeds with enough memory."
  },
  {
   "property": "C82",
   "status": "partial",
   "theorems": [
    "Gost.C82_violations_are_violations",
    "Gost.C82_results",
    "Gost.C82_signatures",
    "Gost.C82_key_agreement",
    "Gost.C82_key_parameters",
    "Gost.C82_contexts",
    "Gost.C82_fill_params_partial",
    "Gost.C82_sign_partial",
    "Gost.C82_transport_partial",
    "Gost.C82_transport_2018_partial",
    "Gost.C82_kdf_partial",
    "Gost.C82_set_priv_key_partial",
    "Gost.C82_cms_agreement_partial",
    "Gost.C82_key_encoding_partial",
    "Gost.C82_small_partial",
    "Gost.C82_transport_false",
    "Gost.C82_cms_agreement_false",
    "Gost.C82_get_parameters_false",
    "Gost.C82_kdf_false",
    "Gost.C82_pub_encode_false",
    "Gost.C82_transport_2018_false",
    "Gost.C82_priv_encode_false",
    "Gost.C82_memory_leaks_false",
    "Gost.C82_memory_null_false"
   ],
   "note": "False of the code for named failures: pkey_GOST_ECcp_encrypt frees the ephemeral key twice when the caller's buffer is too small (C82_transport_false); gost_cms_set_kari_shared_info frees bytes of the CMS message when the agreement fails and leaks on success (C82_cms_agreement_false); gost89_get_asn1_parameters follows NULL on undecodable parameters (C82_get_parameters_false); leaks and NULL uses in further functions (C82_*_false). Proved on all paths for 23 functions, and for the 16 others on all paths without the named failures (C82_*_partial)."
  },
  {
   "property": "C83",
   "status": "proved",
   "theorems": [
    "Gost.C83_key_says",
    "Gost.C83_never_aborts",
    "Gost.C83_other_digest_refused",
    "Gost.C83_accepts_exactly_standard",
    "Gost.C83_signed_message_accepted",
    "Gost.C83_mac_key_says"
   ],
   "note": ""
  },
  {
   "property": "C84",
   "status": "partial",
   "theorems": [
    "Gost.C84_sign_memory_partial",
    "Gost.C84_short_buffer_false",
    "Gost.C84_end_of_process_partial",
    "Gost.C84_end_of_process_false",
    "Gost.C84_extended_digest"
   ],
   "note": "False of the code: *siglen is not read, so 64 or 128 bytes are written into a shorter buffer (C84_short_buffer_false); a digest that is neither 32 nor 64 bytes long ends the process by OPENSSL_assert (C84_end_of_process_false). Proved: exactly the reported number of bytes is written, nothing on failure (C84_sign_memory_partial); exactly when the process ends (C84_end_of_process_partial)."
  },
  {
   "property": "C85",
   "status": "proved",
   "theorems": [
    "Gost.C85_received_key_order",
    "Gost.C85_agreement_in_subgroup",
    "Gost.C85_no_confinement",
    "Gost.C85_verify_standard",
    "Gost.C85_public_check",
    "Gost.C85_pair_check",
    "Gost.C85_low_order_key_decoded"
   ],
   "note": ""
  },
  {
   "property": "C86",
   "status": "proved",
   "theorems": [
    "Gost.C86_contexts",
    "Gost.C86_no_leak",
    "Gost.C86_own_cipher",
    "Gost.C86_mac_out_of_memory"
   ],
   "note": ""
  },
  {
   "property": "C87",
   "status": "partial",
   "theorems": [
    "Gost.C87_received_kuz_ctr",
    "Gost.C87_received_gost_cfb",
    "Gost.C87_algid_actual",
    "Gost.C87_algid_false",
    "Gost.C87_others_ignored",
    "Gost.C87_others_ignored_false"
   ],
   "note": "False of the code: cipher_get_ctx_params gives &der instead of der to OSSL_PARAM_set_octet_string, so the caller gets bytes of the stack (C87_algid_actual, C87_algid_false: no reader can recover the IV); parameters given together with alg_id_param are ignored (C87_others_ignored_false). Proved: the receiving direction (C87_received_kuz_ctr, C87_received_gost_cfb)."
  },
  {
   "property": "C88",
   "status": "proved",
   "theorems": [
    "Gost.C88_kuznyechik_sent",
    "Gost.C88_kuznyechik_received",
    "Gost.C88_magma_sent",
    "Gost.C88_magma_received",
    "Gost.C88_gost89_sent",
    "Gost.C88_gost89_received",
    "Gost.C88_kuznyechik_delivered",
    "Gost.C88_magma_delivered",
    "Gost.C88_gost89_delivered"
   ],
   "note": ""
  },
  {
   "property": "C89",
   "status": "proved",
   "theorems": [
    "Gost.C89_window",
    "Gost.C89_no_reuse",
    "Gost.C89_kuznyechik",
    "Gost.C89_magma"
   ],
   "note": ""
  },
  {
   "property": "C90",
   "status": "proved",
   "theorems": [
    "Gost.Ct.C90_mul_time",
    "Gost.Ct.C90_mul_g_time",
    "Gost.Ct.C90_mul_value",
    "Gost.Ct.C90_mul_g_value",
    "Gost.Ct.C90_two_value",
    "Gost.Ct.C90_two_time"
   ],
   "note": ""
  },
  {
   "property": "C91",
   "status": "proved",
   "theorems": [
    "Gost.Ct.C91_mul_inside",
    "Gost.Ct.C91_mul_g_inside",
    "Gost.Ct.C91_two_inside",
    "Gost.Ct.C91_mul_memory",
    "Gost.Ct.C91_mul_g_memory",
    "Gost.Ct.C91_two_memory"
   ],
   "note": ""
  },
  {
   "property": "C92",
   "status": "partial",
   "theorems": [
    "Gost.C92_gost89_value",
    "Gost.C92_magma_value",
    "Gost.C92_gost89_tables_partial",
    "Gost.C92_magma_tables_partial",
    "Gost.C92_gost89_indices_show_key_false",
    "Gost.C92_magma_indices_show_key_false",
    "Gost.C92_kuznyechik_value",
    "Gost.C92_kuznyechik_tables_partial",
    "Gost.C92_kuznyechik_indices_show_key_false"
   ],
   "note": "False of the code for the indices: one encryption with a known block shows the whole key, computed explicitly from the accesses, whatever the mask (C92_gost89_indices_show_key_false, C92_magma_indices_show_key_false, C92_kuznyechik_indices_show_key_false). Proved: tables, order and number of the accesses do not depend on the key (C92_*_tables_partial). The accesses are added to the model by hand (Model/CipherTrace.lean); the values agree with the block functions (C92_*_value)."
  },
  {
   "property": "C93",
   "status": "proved",
   "theorems": [
    "Gost.C93_complete",
    "Gost.C93_cipher_complete",
    "Gost.C93_failed_freed",
    "Gost.C93_all_get_one",
    "Gost.C93_one_each",
    "Gost.C93_settled",
    "Gost.C93_wait_free",
    "Gost.C93_leak_false",
    "Gost.C93_own_success_false"
   ],
   "note": ""
  },
  {
   "property": "C94",
   "status": "proved",
   "theorems": [
    "Gost.C94_params_written",
    "Gost.C94_cipher_written",
    "Gost.C94_params_read",
    "Gost.C94_masked_read",
    "Gost.C94_cipher_read",
    "Gost.C94_kt_read",
    "Gost.C94_ps_read",
    "Gost.C94_kt_written",
    "Gost.C94_ps_written",
    "Gost.C94_key_sound",
    "Gost.C94_cipher_sound",
    "Gost.C94_transport_sound",
    "Gost.C94_reads_ahead",
    "Gost.C94_cut_off_refused",
    "Gost.C94_kt_cut_off",
    "Gost.C94_within",
    "Gost.C94_known_block",
    "Gost.C94_not_unique",
    "Gost.C94_public_key_written",
    "Gost.C94_public_key_read",
    "Gost.C94_parameters_written"
   ],
   "note": ""
  },
  {
   "property": "C95",
   "status": "partial",
   "theorems": [
    "Gost.C95_private_key_written",
    "Gost.C95_private_key_read",
    "Gost.C95_reads_within_partial",
    "Gost.C95_empty_octets_false",
    "Gost.C95_empty_masked_false",
    "Gost.C95_octet_string",
    "Gost.C95_masked_sequence",
    "Gost.C95_integer_partial",
    "Gost.C95_integer_false"
   ],
   "note": "False of the code for empty octets and for a SEQUENCE with an empty string (priv_len % key_len == 0 holds, so a key length of bytes is read from behind and becomes the key: C95_empty_octets_false, C95_empty_masked_false), and for an INTEGER whose contents are two bytes shorter than the key (it is taken for bare octets: C95_integer_false). Proved for everything else: C95_reads_within_partial, C95_octet_string, C95_masked_sequence, C95_integer_partial."
  }
 ]
}