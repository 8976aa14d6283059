#!/usr/bin/env python3
"""Writes /verif/properties.jsonl from the table below."""
import json, os
P = []
def p(title, statement, quantifier, why, *anchors):
    P.append(dict(id="C%02d" % (len(P)+1), title=title, statement=statement,
                  quantifier=quantifier, why_tests_cant=why, anchors=list(anchors)))

# ---- block ciphers -------------------------------------------------------
p("GOST 28147-89 block decryption inverts encryption",
  "For every substitution block, every 256-bit key, every internal key mask and every 8-byte block, decrypting the encryption of the block gives the block back, and encrypting the decryption gives it back too.",
  "all S-box sets (any 8x16 nibble tables), keys, masks, blocks",
  "The domain is 2^64 blocks x 2^256 keys x all S-boxes x 2^256 random masks; vectors touch a handful.",
  "gost89.c:gostcrypt", "gost89.c:gostdecrypt", "gost89.c:kboxinit", "gost89.c:f")
p("The random key mask never changes a result",
  "The engine stores keys as (key - mask, mask) with a fresh random mask; for every mask the block function computes the same ciphertext as with mask 0, and reading the key back returns exactly the 32 bytes that were set.",
  "all keys, all masks, all blocks",
  "The mask comes from RAND_bytes, so a test sees one mask per run; a carry bug for rare masks would be invisible.",
  "gost89.c:gost_key", "gost89.c:gost_key_impl", "gost89.c:gost_get_key", "gost89.c:gostcrypt")
p("Magma is GOST 28147-89 with byte order reversed, and inverts",
  "Magma encryption of a block equals GOST 28147-89 encryption with the key words and the block bytes reversed; Magma decryption inverts Magma encryption; reading a Magma key back returns it.",
  "all S-boxes, keys, masks, blocks",
  "Universal over keys, blocks and masks.",
  "gost89.c:magmacrypt", "gost89.c:magmadecrypt", "gost89.c:magma_key", "gost89.c:magma_get_key")
p("The published substitution blocks are permutations and use the documented rows",
  "Every S-box row of each of the eight built-in parameter sets is a permutation of 0..15, and the 4x256 lookup tables built from a set compute, for every 32-bit word, eight independent nibble substitutions followed by a rotation by 11.",
  "all built-in sets, all 2^32 round inputs",
  "2^32 inputs per set; the composite table is indexed by data.",
  "gost89.c:kboxinit", "gost89.c:f", "gost89.c:Gost28147_CryptoProParamSetA")
p("Kuznyechik decryption inverts encryption, with the precomputed tables",
  "For every 256-bit key and every 16-byte block, decrypting (with the decryption key schedule and the decryption tables) the encryption (with the encryption schedule and table) returns the block, and conversely.",
  "all keys, all blocks",
  "2^384 inputs; a single wrong byte among 196608 table bytes is used by 1/256 of blocks per position.",
  "gost_grasshopper_core.c:grasshopper_encrypt_block", "gost_grasshopper_core.c:grasshopper_decrypt_block", "gost_grasshopper_core.c:grasshopper_set_decrypt_key", "gost_grasshopper_precompiled.c")
p("Kuznyechik tables equal the GOST R 34.12-2015 transformations",
  "Every entry of the three precomputed 16x256 tables equals the linear transform L (resp. its inverse) of the S-box output (resp. input, inverse S-box output) at that position, so the table-driven round equals LSX of the standard, and the log/antilog multiplication equals multiplication in GF(2)[x]/(x^8+x^7+x^6+x+1).",
  "all 12288 table entries and all states",
  "A test covers only the entries its vectors index.",
  "gost_grasshopper_precompiled.c", "gost_grasshopper_galois_precompiled.c", "gost_grasshopper_math.h:grasshopper_galois_mul", "gost_grasshopper_core.c:grasshopper_l")
# ---- byte/ctr helpers -----------------------------------------------------
p("Counter increments are +1 modulo 2^n and never repeat early",
  "The big-endian counter increments used in the CTR modes (64- and 128-bit) and in MGM's half-block counters add one modulo 2^n to the encoded integer, so counter blocks at two different offsets closer than 2^n are different.",
  "all counter values, all offsets",
  "Carries out of the low bytes occur once per 2^8..2^64 blocks.",
  "gost_grasshopper_cipher.c:inc_counter", "gost_crypt.c:ctr64_inc", "gost_grasshopper_cipher.c:ctr128_inc", "gost_gost2015.c:gost_mgm128_encrypt")
# ---- legacy modes -----------------------------------------------------
p("GOST 28147-89 raw ECB and CFB helpers invert",
  "gost_dec after gost_enc and gost_dec_cfb after gost_enc_cfb restore the data for every number of blocks.",
  "all block counts, data, keys, IVs",
  "Unbounded length.",
  "gost89.c:gost_enc", "gost89.c:gost_dec", "gost89.c:gost_enc_cfb", "gost89.c:gost_dec_cfb")
p("GOST 28147-89 CBC: decrypt inverts encrypt across any split into calls",
  "Encrypting a whole number of blocks through any sequence of update calls and decrypting the result through any other sequence of update calls restores the data, and the ciphertext does not depend on the split. (This mode applies no key meshing.)",
  "all keys, IVs, data, all splits into whole-block calls on both sides",
  "Infinitely many histories; each call hands the chaining block to the next through the context.",
  "gost_crypt.c:gost_cipher_do_cbc")
p("GOST 28147-89 CFB: decrypt inverts encrypt under any chunking, and output does not depend on chunking",
  "For every data, every split of the encryption into update calls and every other split of the decryption, decryption restores the plaintext; ciphertext depends only on the concatenated data.",
  "all data lengths, all chunkings incl. empty and non-block-aligned chunks",
  "Infinitely many chunkings interacting with the partial-block buffer and the 1024-byte meshing counter.",
  "gost_crypt.c:gost_cipher_do_cfb", "gost_crypt.c:gost_crypt_mesh")
p("GOST 28147-89 CNT: keystream is chunk-independent and the cipher is its own inverse",
  "The output of gost89-cnt (with and without meshing) over any sequence of update calls is the XOR of the input with a keystream that depends only on key, IV, parameters and byte position; hence decryption with any other chunking restores the data.",
  "all data, all chunkings",
  "As for CFB.",
  "gost_crypt.c:gost_cipher_do_cnt", "gost_crypt.c:gost_cnt_next")
p("Key meshing happens exactly after each 1024 processed bytes",
  "With meshing on, the block operation that would start byte 1024*k (k>=1) is preceded by exactly one key meshing and no other block operation is; the internal byte counter never exceeds 1024 and never overflows.",
  "all message lengths",
  "Needs induction over the whole history of blocks.",
  "gost_crypt.c:gost_crypt_mesh", "gost_crypt.c:gost_cnt_next", "gost_crypt.c:mac_block_mesh")
# ---- magma / kuznyechik modes ----------------------------------------------
p("Magma and Kuznyechik ECB and CBC: decrypt inverts encrypt across any split into calls",
  "For both ciphers, decrypting what was encrypted restores the data for any whole number of blocks and any split into whole-block update calls on both sides.",
  "all keys, IVs, block counts, splits",
  "Unbounded histories.",
  "gost_crypt.c:magma_cipher_do_ecb", "gost_crypt.c:magma_cipher_do_cbc", "gost_grasshopper_cipher.c:gost_grasshopper_cipher_do_ecb", "gost_grasshopper_cipher.c:gost_grasshopper_cipher_do_cbc")
p("Magma and Kuznyechik CTR: chunk-independent keystream, self-inverse",
  "CTR output over any sequence of update calls (of any sizes, including zero and non-multiples of the block) equals the one-shot output and is the XOR with E(counter+i) taken byte by byte; decryption under any chunking restores the data.",
  "all data, all chunkings, both ciphers",
  "Partial-block buffer state machine over infinitely many histories.",
  "gost_crypt.c:magma_cipher_do_ctr", "gost_grasshopper_cipher.c:gost_grasshopper_cipher_do_ctr")
p("CTR-ACPKM: chunk independence, rekeying exactly at section boundaries, section 0 is plain CTR",
  "CTR-ACPKM output over any chunking equals the one-shot output; block number i is encrypted with the key obtained by exactly floor(i*blocksize/section) ACPKM steps; with section size 0 the mode is plain CTR; decrypting restores the data.",
  "all data, chunkings, section sizes that are multiples of the block size",
  "Unbounded number of sections and chunk histories.",
  "gost_crypt.c:apply_acpkm_magma", "gost_crypt.c:magma_cipher_do_ctr", "gost_grasshopper_cipher.c:apply_acpkm_grasshopper", "gost_grasshopper_cipher.c:gost_grasshopper_cipher_do_ctracpkm")
p("Kuznyechik OFB and CFB: chunk independence and inversion",
  "For OFB and CFB the output over any chunking equals the one-shot output, and decryption under any chunking restores the data.",
  "all data, all chunkings",
  "The tail handling leaves a full block pending (num = 16) which only unusual chunkings observe.",
  "gost_grasshopper_cipher.c:gost_grasshopper_cipher_do_ofb", "gost_grasshopper_cipher.c:gost_grasshopper_cipher_do_cfb")
p("Re-initialising a cipher context behaves like a fresh one",
  "After EVP init with key and IV on a used context, the output is the same as with a fresh context given the same key and IV.",
  "all prior histories of the context",
  "Ranges over all prior histories.",
  "gost_crypt.c:gost_cipher_init_param", "gost_crypt.c:magma_cipher_init", "gost_grasshopper_cipher.c:gost_grasshopper_cipher_init_ctr")
# ---- MACs ---------------------------------------------------------------
p("GOST 28147-89 MAC over EVP does not depend on how data are split",
  "Feeding a message to the MAC digest in any sequence of update calls gives the same MAC as feeding it in one call.",
  "all messages, all chunkings",
  "Infinitely many chunkings.",
  "gost_crypt.c:gost_imit_update", "gost_crypt.c:gost_imit_final", "gost_crypt.c:mac_block_mesh")
p("The streaming GOST 28147-89 MAC agrees with the one-shot gost_mac",
  "For messages of at most 1024 bytes (where no key meshing occurs) the EVP MAC equals the one-shot library MAC of the same message and size, for every key.",
  "all messages up to 1024 bytes, keys, MAC sizes",
  "All messages and keys.",
  "gost_crypt.c:gost_imit_update", "gost89.c:gost_mac", "gost89.c:mac_block")
p("MAC truncation to a number of bits keeps exactly the leading bits",
  "get_mac for nbits returns the first nbits of the MAC state and zeroes the remaining bits of the last byte.",
  "all MAC states, all nbits 1..32",
  "All bit counts and states; tests use multiples of 8.",
  "gost89.c:get_mac")
p("OMAC-ACPKM does not depend on how data are split and switches keys exactly at section boundaries",
  "Feeding a message in any sequence of update calls gives the same tag as one call; block i of the message is processed under the i*blocksize/section-th derived key.",
  "all messages, chunkings, section sizes",
  "Unbounded histories and lazily-processed last block.",
  "gost_omac_acpkm.c:CMAC_ACPKM_Update", "gost_omac_acpkm.c:CMAC_ACPKM_Final", "gost_omac_acpkm.c:CMAC_ACPKM_Mesh")
# ---- GF / MGM -------------------------------------------------------------
p("MGM field multiplications are multiplication in GF(2^64) and GF(2^128)",
  "The bit-loop multiplications equal polynomial multiplication modulo x^64+x^4+x^3+x+1 and x^128+x^7+x^2+x+1 for all operands; in particular they are commutative, distribute over XOR and have 1 as unit.",
  "all pairs of operands",
  "2^128 / 2^256 operand pairs.",
  "gost_crypt.c:gf64_mul", "gost_grasshopper_cipher.c:gf128_mul_uint64")
p("MGM: decryption of an encryption with the same associated data restores the plaintext and the tag verifies",
  "For every key, nonce, associated data, plaintext and chunking of both sides, decryption returns the plaintext and computes the same tag, so verification succeeds.",
  "all keys, nonces, AAD, plaintexts (including empty ones), chunkings",
  "Universal over data and chunkings; empty AAD is the interesting boundary.",
  "gost_gost2015.c:gost_mgm128_encrypt", "gost_gost2015.c:gost_mgm128_decrypt", "gost_gost2015.c:gost_mgm128_aad", "gost_gost2015.c:gost_mgm128_finish")
p("MGM tag and ciphertext do not depend on chunking",
  "Splitting the plaintext or the associated data over several update calls (associated data first, then data) gives the same ciphertext and tag as single calls.",
  "all splits",
  "Infinitely many splits crossing block boundaries.",
  "gost_gost2015.c:gost_mgm128_aad", "gost_gost2015.c:gost_mgm128_encrypt")
p("MGM call-order and length discipline",
  "Associated data are rejected after message data, inputs beyond the per-nonce limits are rejected without changing the state, and the final length block determines the lengths of associated data and message (bit lengths always fit their half-block fields).",
  "all call sequences and lengths",
  "Call sequences are unbounded and the limits are 2^29 / 2^61 bytes.",
  "gost_gost2015.c:gost_mgm128_aad", "gost_gost2015.c:gost_mgm128_encrypt", "gost_gost2015.c:gost_mgm128_finish")
p("MGM nonces: first bit is reserved, data counter and authentication counter start separated",
  "The mode ignores exactly the top bit of the nonce: the encryption counter is derived with top bit 0 and the authentication counter with top bit 1, so the two derived start blocks always differ and two nonces give the same start blocks iff they differ at most in the top bit.",
  "all nonces",
  "All nonces.",
  "gost_gost2015.c:gost_mgm128_setiv", "gost_gost2015.c:gost_mgm128_aad", "gost_gost2015.c:gost_mgm128_encrypt")
p("AEAD/MAC-ed decryption reports success exactly when the tag matches",
  "Finishing an MGM decryption, or a CTR-ACPKM-OMAC decryption, returns success if and only if the supplied tag equals the computed tag on the tag length.",
  "all tags, lengths",
  "2^128 tags.",
  "gost_gost2015.c:gost_mgm128_finish", "gost_gost2015.c:gost2015_final_call")
# ---- hashes ----------------------------------------------------------------
p("Streebog hashing does not depend on how data are split",
  "Any sequence of update calls gives the same digest as one call with the concatenated data.",
  "all messages, all chunkings",
  "Infinitely many chunkings.",
  "gosthash2012.c:gost2012_hash_block", "gosthash2012.c:gost2012_finish_hash")
p("Streebog 512-bit additions are exact modulo 2^512",
  "The word-wise addition with hand-written carries used for the length and checksum equals addition modulo 2^512 for all operands.",
  "all 2^1024 operand pairs",
  "Multi-word carry chains are exercised with negligible probability by random tests.",
  "gosthash2012.c:add512")
p("Streebog equals the standard's definition on every message",
  "The incremental implementation returns the same value as the one-shot definition: fold of the compression function over 64-byte blocks, padding 1 0..0, then compression of the bit length and of the checksum modulo 2^512, and the 256-bit variant is the upper half with its own IV.",
  "all messages",
  "All lengths.",
  "gosthash2012.c")
p("GOST R 34.11-94 hashing does not depend on how data are split and finishing leaves the context usable",
  "Any sequence of update calls gives the same digest as one call; finishing does not modify the context, so the digest of a prefix may be taken and hashing continued.",
  "all messages, chunkings, S-boxes",
  "Infinitely many chunkings.",
  "gosthash.c:hash_block", "gosthash.c:finish_hash")
p("GOST R 34.11-94 checksum addition is exact modulo 2^256",
  "The byte-wise addition with carry equals addition modulo 2^256 of little-endian integers for all operands.",
  "all operand pairs",
  "Long carries.",
  "gosthash.c:add_blocks")
# ---- key transport ---------------------------------------------------------------
p("KExp15/KImp15: import inverts export; tampering is accepted only if the MAC matches",
  "Importing an exported key with the same keys and IV returns the key; import succeeds iff the decrypted MAC field equals the MAC of IV||key; on failure the output buffer is not written.",
  "all keys, IVs, exported blobs",
  "All blobs.",
  "gost_keyexpimp.c:gost_kexp15", "gost_keyexpimp.c:gost_kimp15")
p("CryptoPro key wrap: unwrap inverts wrap; unwrap succeeds exactly when the MAC matches",
  "Unwrapping a wrapped key with the same KEK returns it; unwrap returns 1 iff the embedded 4-byte MAC equals the MAC of the decrypted key under the diversified KEK.",
  "all KEKs, UKMs, keys, wrapped blobs",
  "All blobs, UKM bits select diversification S-box inputs.",
  "gost_keywrap.c:keyWrapCryptoPro", "gost_keywrap.c:keyUnwrapCryptoPro", "gost_keywrap.c:keyDiversifyCryptoPro")
p("KDF_TREE: every output block is derived from a distinct input; output is a prefix-closed sequence for fixed length",
  "For every label, seed and output length below the counter limit, the i-th 32-byte block is HMAC over [i]||label||0||seed||L with a distinct counter encoding, so no two blocks hash the same input.",
  "all labels, seeds, representations R=1..4, lengths",
  "All lengths; the counter encoding depends on R.",
  "gost_keyexpimp.c:gost_kdftree2012_256")
p("TLSTREE keys depend only on the masked sequence number, and records in one window share the key",
  "Two records get the same TLSTREE derivation inputs iff their sequence numbers agree after masking with the three published masks, i.e. iff they lie in the same 64-record (Kuznyechik) / 4096-record (Magma) window.",
  "all 2^64 sequence numbers and pairs",
  "2^128 pairs.",
  "gost_keyexpimp.c:gost_tlstree")
p("TLS sequence arithmetic: decrement and IV adjustment are exact",
  "The TLSTREE control subtracts 1 modulo 2^64 from the sequence number exactly when its argument is 1 and refuses arguments other than 0 and 1; the IV adjustment adds the sequence number to the big-endian IV modulo 2^n; after any history a record is encrypted in CTR mode under its TLSTREE key with that IV, and decryption inverts it.",
  "all sequence numbers and IVs",
  "Carry/borrow chains.",
  "gost_crypt.c:decrement_sequence", "gost_crypt.c:magma_cipher_ctl", "gost_grasshopper_cipher.c:gost_grasshopper_cipher_ctl")
# ---- public key ----------------------------------------------------------------
p("GOST R 34.10 verification accepts every honestly produced signature",
  "For every group of prime order q, private key, digest and nonce, the signature returned by signing is accepted by verification under the matching public key.",
  "all groups, keys, digests, nonces",
  "All keys and nonces.",
  "gost_ec_sign.c:gost_ec_sign", "gost_ec_sign.c:gost_ec_verify", "gost_ec_sign.c:gost_ec_compute_public")
p("GOST R 34.10 verification rejects out-of-range signatures and signing never emits them",
  "Signatures with r or s equal to 0 or at least q are rejected for every key and digest; produced r and s are always in 1..q-1; a digest that is 0 mod q is treated as 1.",
  "all signatures, keys, digests",
  "All values.",
  "gost_ec_sign.c:gost_ec_verify", "gost_ec_sign.c:gost_ec_sign")
p("VKO key agreement is symmetric",
  "For every pair of key pairs in a group and every UKM both sides derive the same shared key; with the cofactor multiplied in exactly once on each side.",
  "all key pairs, UKMs",
  "All pairs.",
  "gost_ec_keyx.c:VKO_compute_key")
p("KEG UKM handling",
  "KEG uses the reversed first 16 UKM bytes unless they are all zero, in which case it uses the UKM 0..01; so the effective VKO multiplier is never zero.",
  "all UKMs",
  "2^128 UKMs, special value zero.",
  "gost_ec_keyx.c:gost_keg")
p("Signature and key serialisation round-trips",
  "Packing a signature into s||r of fixed width and unpacking returns (r,s) for all values that fit; storing a number into a fixed-width buffer fails exactly when it does not fit and otherwise is inverted by reading; raw private/public keys encode to little-endian and decode to the same numbers.",
  "all numbers and widths",
  "Leading zeros occur with probability 2^-8k.",
  "gost_pmeth.c:pack_sign_cp", "gost_pmeth.c:unpack_cp_signature", "gost_ameth.c:store_bignum", "gost_ameth.c:pub_encode_gost_ec", "gost_ameth.c:pub_decode_gost_ec", "gost_ameth.c:gost_encode_priv_key")
p("Masked private keys decode to the unmasked key",
  "Decoding a private key blob containing k*M1*..*Mn^-1.. and the masks yields the key modulo q: with masked value d*(M1..Mn)^-1 and masks M1..Mn decoding returns d.",
  "all mask lists",
  "Unbounded number of masks.",
  "gost_ameth.c:unmask_priv_key")
p("Scalar recodings are exact",
  "The windowed NAF recoding of a scalar evaluates back to the scalar and its digits are zero or odd in -31..31; the regular recoding evaluates to scalar|1 with all digits odd; no 8-bit overflow occurs.",
  "all 256/512-bit scalars",
  "2^512 scalars.",
  "ecp_id_GostR3410_2001_CryptoPro_A_ParamSet.c:scalar_wnaf", "ecp_id_GostR3410_2001_CryptoPro_A_ParamSet.c:scalar_rwnaf")
p("Point multiplication in the curve files computes in the group of the curve",
  "For every curve name with dedicated code (13 names, 8 files), with 64-bit and with 32-bit words: point_mul_g(n) returns n*G, point_mul(Q, m) returns m*Q (times the cofactor 4 on the two Edwards curves) and point_mul_two(n, Q, m) returns n*G + m*Q for Q in the group of order q, for all scalars that fit the buffer (others are refused), including even and zero scalars; the result is that of the group of points of the curve selected by the name. Consequently key generation, signing, verification and VKO over these files behave as in that group.",
  "all scalars, all points of the curve, all curve names, both word sizes",
  "All scalars and points; sign flipping, even-scalar corrections, table entries used by one scalar in 2^250.",
  "gost_ec_sign.c:gost_ec_point_mul", "ecp_id_GostR3410_2001_CryptoPro_A_ParamSet.c:var_smul_rwnaf", "ecp_id_GostR3410_2001_CryptoPro_A_ParamSet.c:fixed_smul_cmb", "ecp_id_GostR3410_2001_CryptoPro_A_ParamSet.c:var_smul_wnaf_two", "ecp_id_GostR3410_2001_CryptoPro_A_ParamSet.c:lut_cmb", "ecp_id_GostR3410_2001_CryptoPro_A_ParamSet.c:point_double", "ecp_id_tc26_gost_3410_2012_256_paramSetA.c:point_edwards2legacy")

p("Built-in curve parameters are those the standard allows, and a NID always selects its curve",
  "For every built-in parameter set, p and q are prime, the base point lies on the curve and has order exactly q in the group of the curve, the number of points of the curve is exactly cofactor*q, the curve is not singular, not anomalous and has no small embedding degree (GOST R 34.10-2012, section 5.2); aliased sets have equal parameters; after any history of key creations a key created for a NID gets exactly the curve the NID names, and unknown NIDs are refused.",
  "all built-in parameter sets; all NIDs; all histories of earlier requests (shared cache of groups)",
  "Primality, group order and number of points are statements about all points of a curve over a 256/512 bit field; the cache makes the result depend on history.",
  "gost_params.c:R3410_2001_paramset", "gost_params.c:R3410_2012_512_paramset", "gost_ec_sign.c:gost_nid2params", "gost_ec_sign.c:fill_GOST_EC_params")
# ---- control surface ------------------------------------------------------------
p("Cipher ASN.1 parameters: malformed parameters are rejected",
  "Loading algorithm parameters into a cipher context reports failure whenever the parameters are missing or malformed.",
  "all parameter encodings",
  "All malformed encodings.",
  "gost_crypt.c:magma_get_asn1_parameters", "gost_grasshopper_cipher.c:gost_grasshopper_get_asn1_parameters", "gost_gost2015.c:gost2015_get_asn1_params")
p("Cipher ASN.1 parameters round-trip IV and KDF seed",
  "What set_asn1 stores (IV part and 8-byte KDF seed) is exactly what get_asn1 loads, for both 12-byte and 16-byte UKMs.",
  "all IVs and seeds",
  "All values.",
  "gost_gost2015.c:gost2015_get_asn1_params", "gost_gost2015.c:gost2015_set_asn1_params")
p("Parameter changes are refused once data have been processed",
  "For GOST 28147-89 ciphers, changing the S-box or the key-meshing setting after any data have been processed fails and leaves the context unchanged; Kuznyechik section sizes must be non-zero multiples of the block size.",
  "all histories",
  "All histories.",
  "gost_crypt.c:gost_cipher_ctl", "gost_grasshopper_cipher.c:gost_grasshopper_cipher_ctl")
p("Wrap ciphers accumulate updates of any split",
  "The KExp15 wrap ciphers accept the data in any number of update calls and act on the concatenation; the result is the same as for a single call.",
  "all splits",
  "All splits.",
  "gost_keyexpimp.c:magma_wrap_do", "gost_keyexpimp.c:kuznyechik_wrap_do")
p("Engine parameters: environment takes precedence and lookups are stable",
  "Setting an engine parameter stores the environment value if present, else the given value; out-of-range parameter numbers are rejected and change nothing; a lookup returns the stored value if any, else caches the environment value.",
  "all sequences of set/get operations and environments",
  "All histories.",
  "gost_ctl.c:gost_control_func", "gost_ctl.c:gost_set_default_param", "gost_ctl.c:get_gost_engine_param")
p("Every advertised public-key method resolves to an implementation",
  "For each NID the engine lists, the lookup callback reports success together with a usable (non-NULL) method.",
  "all listed NIDs",
  "Whole-table claim; the registration loop skips one entry.",
  "gost_eng.c:gost_pkey_meths", "gost_eng.c:populate_gost_engine", "gost_eng.c:gost_meth_nids")
p("gostsum checksum files: a generated line is parsed back",
  "A line printed by the generator (hash, space, name) is parsed by the checker into the same hash and name for every name without CR/LF, and hashing a file does not depend on how read() splits it.",
  "all digests, names, read splits",
  "All names and short-read patterns.",
  "gostsum.c:get_line", "gostsum.c:hash_stream", "gost12sum.c:get_line")

p("The GOST 28147-89 block function is the standard's Feistel network",
  "For every built-in (or any nibble-valued) S-box set, key and block, the table-driven block encryption equals the 32-round Feistel network of GOST 28147-89 written with plain nibble substitutions and the K1..K8 x3, K8..K1 key order.",
  "all S-box sets, keys, masks, blocks",
  "Vectors cover a few keys; equality must hold for the whole domain.",
  "gost89.c:gostcrypt", "gost89.c:f", "gost89.c:kboxinit")
p("Data handed over with algorithm parameters are recovered",
  "A sender initialises a cipher with key and IV, stores its algorithm parameters and encrypts; a receiver initialises without a key, loads these parameters, sets the same key and decrypts (the CMS flow). The receiver gets the sender's data, for every length and chunking and whatever the receiver's own defaults are.",
  "all keys, IVs, seeds, data lengths and chunkings, default settings of both sides",
  "Messages shorter than one key-meshing section hide the difference between the section sizes of the two sides.",
  "gost_crypt.c:magma_set_asn1_parameters", "gost_crypt.c:magma_get_asn1_parameters", "gost_crypt.c:magma_cipher_init", "gost_grasshopper_cipher.c:gost_grasshopper_set_asn1_parameters", "gost_grasshopper_cipher.c:gost_grasshopper_cipher_init_ctracpkm", "gost_crypt.c:gost89_get_asn1_parameters")

p("Field arithmetic of the curve files is arithmetic modulo the prime",
  "In each of the eight curve files and both word sizes, multiplication, squaring, addition, subtraction, negation, inversion and the conversions from and to bytes give the residue modulo the prime of the curve for every field element the code can hold; no intermediate word overflows in a way that changes the result.",
  "all limb values within the bounds, all numbers below p",
  "Carry chains that fail for one operand in 2^60 are not found by sampling.",
  "ecp_id_GostR3410_2001_CryptoPro_A_ParamSet.c:fiat_id_GostR3410_2001_CryptoPro_A_ParamSet_carry_mul", "ecp_id_GostR3410_2001_CryptoPro_B_ParamSet.c:fiat_id_GostR3410_2001_CryptoPro_B_ParamSet_mul", "ecp_id_tc26_gost_3410_2012_512_paramSetB.c:fiat_id_tc26_gost_3410_2012_512_paramSetB_mul", "ecp_id_tc26_gost_3410_2012_512_paramSetC.c:fiat_id_tc26_gost_3410_2012_512_paramSetC_inv")

p("Keys written in standard structures are read back unchanged",
  "A public key written as SubjectPublicKeyInfo, a private key written as PKCS#8 and parameters written on their own are read back as a key with the same algorithm, curve and numbers; a decoded public key is always a point of the curve; copied parameters compare equal; a generated key survives the trip.",
  "all algorithms, curves, keys, masks of nothing else than the writer's format, cache histories of the curve tables, random sources, word sizes",
  "Coordinates and private keys with leading zero bytes are rare; reading a key depends on which curves were used before.",
  "gost_ameth.c:pub_encode_gost_ec", "gost_ameth.c:pub_decode_gost_ec", "gost_ameth.c:priv_encode_gost", "gost_ameth.c:priv_decode_gost", "gost_ameth.c:param_copy_gost_ec", "gost_pmeth.c:pkey_gost2001cp_keygen", "gost_pmeth.c:pkey_gost2012_paramgen")

p("A session key sent to a recipient arrives, and nothing else is accepted",
  "A 32-byte session key encrypted to a public key with EVP_PKEY_encrypt, in the CryptoPro variant or in the 2018 variant with either cipher, with an ephemeral key or one of the sender's own, is returned unchanged by EVP_PKEY_decrypt with the private key; the size reported for a NULL buffer is that of the structure and suffices. A structure is accepted only if its strings are the wrapping (or export) of the key delivered under the key shared with its sender; other ciphers, key types and curves are refused.",
  "all curves with a curve file, key types, keys, UKMs, random sources, word sizes of both sides, cache histories, states of the contexts, inputs to the recipient",
  "Agreement must hold for every key pair and UKM; rejection must hold for every forged structure.",
  "gost_ec_keyx.c:pkey_gost_encrypt", "gost_ec_keyx.c:pkey_gost_decrypt", "gost_ec_keyx.c:pkey_GOST_ECcp_encrypt", "gost_ec_keyx.c:pkey_GOST_ECcp_decrypt", "gost_ec_keyx.c:pkey_gost2018_encrypt", "gost_ec_keyx.c:pkey_gost2018_decrypt", "gost_pmeth.c:pkey_gost_ctrl")

p("EVP_PKEY_derive uses the last settings and both parties agree",
  "After any sequence of control calls on a new context, given as numbers or as text, with copies of the context in between, EVP_PKEY_derive computes the VKO key (with the digest length last chosen, or 32 bytes for a UKM of 8 bytes) or the KEG keys (UKM of 32 bytes) for the UKM last set; nothing of earlier settings remains. The size reported for a NULL buffer is the length of the key. Two parties with the same last settings and each other's public keys derive the same key. A text accepted as parameter set names a curve of the method's length.",
  "all histories of control calls, keys, curves with a curve file, UKMs, digests, texts, word sizes of both sides",
  "Left-over bytes of an earlier, longer UKM show up only in particular call sequences; agreement must hold for every pair of keys.",
  "gost_ec_keyx.c:pkey_gost_ec_derive", "gost_pmeth.c:pkey_gost_ctrl", "gost_pmeth.c:pkey_gost_ec_ctrl_str_common", "gost_pmeth.c:pkey_gost_ec_ctrl_str_256", "gost_pmeth.c:pkey_gost_ec_ctrl_str_512", "gost_pmeth.c:pkey_gost_init", "gost_pmeth.c:pkey_gost_copy")

p("CMS recipients get the session key, whichever cipher was announced",
  "A session key sent to a key transport recipient as OpenSSL's CMS code does (announce the cipher, set the algorithm, ask for the size, encrypt into a buffer of that size) is delivered to the recipient, who knows only the private key and the structure, for every cipher the engine supports there; other ciphers and algorithms are refused on either side. A key agreement recipient gets the key if and only if it was exported under the keys the originator derives for the same UKM. The digest announced for a signature is the only one the engine signs with for that key.",
  "all curves with a curve file, key pairs, key types, ciphers, UKMs, random sources, word sizes of both sides, cache histories, encrypted keys, memory left over on the stack",
  "Sender and recipient pick the variant from different identifiers; the two calls of the sender (size, then data) draw different random numbers.",
  "gost_ameth.c:pkey_ctrl_gost", "gost_ameth.c:gost_cms_set_kari_shared_info", "gost_ameth.c:gost_cms_set_ktri_shared_info", "gost_ameth.c:gost_encode_cms_params", "gost_keyexpimp.c:magma_wrap_do", "gost_ec_keyx.c:pkey_gost_encrypt")

p("A MAC computed through keys and controls is the standard's, with the last settings",
  "A MAC key is generated after any history of controls (by command or as text, any of which may be refused), then used with EVP_DigestSignInit, further controls, data in any chunks and EVP_DigestSignFinal. The result is the MAC of the key type (GOST 28147-89 in either parameter set, OMAC with Magma or Kuznyechik, OMAC-ACPKM) for the key, parameter set and size last accepted; refused controls have no effect, a key is needed, only keys of 32 bytes are taken, and a size given in digits is accepted exactly in its range.",
  "all histories of control calls before and after key generation, texts, keys, sizes, messages and chunkings",
  "Which of several settings wins, and whether a refused one leaves a trace, depends on the whole history.",
  "gost_pmeth.c:pkey_gost_mac_ctrl", "gost_pmeth.c:pkey_gost_mac_ctrl_str", "gost_pmeth.c:pkey_gost_omac_ctrl", "gost_pmeth.c:pkey_gost_omac_ctrl_str", "gost_pmeth.c:pkey_gost_mac_keygen_base", "gost_pmeth.c:pkey_gost_mac_signctx", "gost_omac.c:omac_imit_ctrl", "gost_crypt.c:gost_imit_ctrl")

p("CTR-ACPKM-OMAC seals messages as the standard says, on contexts with any past",
  "With the ciphers magma-ctr-acpkm-omac and kuznyechik-ctr-acpkm-omac, on a context prepared by any sequence of initialisations and parameter loads, an initialisation with a key followed by data in any chunks and the final call gives the CTR-ACPKM encryption of the message followed by its OMAC, under the two keys derived with KDF_TREE from the key and the seed drawn; ciphertext and tag have the lengths announced, the seed is the one stored in the parameters, a caller-set section size is honoured. Decryption with the same seed returns the message and accepts the tag.",
  "all preparing histories, keys, IVs, seeds, section sizes, messages and chunkings, both ciphers",
  "Seed, IV and section size survive or are overwritten by earlier calls; the tag must match for every length modulo the section.",
  "gost_gost2015.c:gost2015_acpkm_omac_init", "gost_gost2015.c:gost2015_final_call", "gost_gost2015.c:init_zero_kdf_seed", "gost_crypt.c:magma_cipher_init_ctr_acpkm_omac", "gost_crypt.c:magma_cipher_do_ctr_acpkm_omac", "gost_grasshopper_cipher.c:gost_grasshopper_cipher_init_ctracpkm_omac", "gost_grasshopper_cipher.c:gost_grasshopper_cipher_do_ctracpkm_omac", "gost_gost2015.c:gost2015_process_unprotected_attributes")

p("A MAC computed through the provider is the standard's, on contexts with any past",
  "Take a context of one of the provider's five MACs, used by any sequence of EVP_MAC calls, of which any may have been refused, with finals and duplicates in between. Once a key of 32 bytes is set, as the argument of EVP_MAC_init or as a parameter, every further data call succeeds and EVP_MAC_final returns the MAC of exactly the data given since, under that key, cut to the size last given; nothing of earlier keys, data or sections remains. For OMAC-ACPKM the same holds with the section sizes given with the key as parameters. A duplicate taken in the middle of a message goes on like the original. Without a key data are refused, and so are keys of other lengths.",
  "all histories of calls on a context, five MACs, keys, sizes, ways to give the key, messages and chunkings",
  "Whether earlier keys, data, sizes or refused calls leave a trace depends on the whole history of the context.",
  "gost_prov_mac.c:mac_newctx", "gost_prov_mac.c:mac_dupctx", "gost_prov_mac.c:mac_init", "gost_prov_mac.c:mac_update", "gost_prov_mac.c:mac_final", "gost_prov_mac.c:mac_set_ctx_params", "gost_prov_mac.c:mac_get_ctx_params", "gost_omac.c:omac_imit_ctrl", "gost_omac_acpkm.c:omac_acpkm_imit_ctrl", "gost_crypt.c:gost_imit_ctrl")

p("Digests through the provider hash exactly the data of their context, in every interleaving",
  "For every history of calls on any number of digest contexts of the provider (new contexts, duplicates at any point, initialisations at any point, pieces of data below 2^31 bytes, final calls, all interleaved) every call succeeds and each final call returns the standard's hash (GOST R 34.11-94 with the CryptoPro substitution, Streebog-256, Streebog-512) of exactly the data its context got since it was last initialised, a duplicate having got what its original had got by then, and reports its length; the sizes reported for the digest are the standard's.",
  "all histories of calls on any number of contexts, three digests, messages below 2^60 bytes, build variants",
  "Left-over data after re-initialisation, or state shared between a context and its duplicate, show up only in particular interleavings.",
  "gost_prov_digest.c:digest_newctx", "gost_prov_digest.c:digest_dupctx", "gost_prov_digest.c:digest_init", "gost_prov_digest.c:digest_update", "gost_prov_digest.c:digest_final", "gost_prov_digest.c:digest_get_params", "gost_md.c:gost_digest_init", "gost_md.c:gost_digest_copy", "gost_md2012.c:gost_digest_copy")

p("OMAC contexts own their memory: no use after free, no sharing, in every history",
  "For every history of EVP calls over any number of contexts of the OMAC digests (initialise, set key, TLSTREE, section and MAC sizes, data, final, copy, reset, in any order) no memory is used after it was freed, freed twice or reached through NULL, except by calls that use the MAC state before a key was set or a digest chosen; every call returns what it would return if each context held its MAC state by value, so copies and originals never influence each other. Memory not freed belongs to a context, except after a second key set on a context, or a key set after the final call and before a reset or copy.",
  "all histories of calls over any number of contexts, both OMAC families, all keys and data",
  "A pointer shared after a copy or freed twice depends on the order of copies, finals, resets and key changes across contexts.",
  "gost_omac.c:omac_imit_copy", "gost_omac.c:omac_imit_cleanup", "gost_omac.c:omac_key", "gost_omac.c:omac_imit_ctrl", "gost_omac_acpkm.c:omac_acpkm_imit_copy", "gost_omac_acpkm.c:omac_acpkm_imit_cleanup", "gost_omac_acpkm.c:omac_acpkm_key", "gost_omac_acpkm.c:CMAC_ACPKM_CTX_copy")

p("Ciphers through the provider buffer and pad as documented, on contexts with any past",
  "For the block mode ciphers (GOST 28147-89 CBC, Magma CBC and ECB, Kuznyechik ECB and CBC) take a context with any history of calls, then an init with key and IV, the padding parameter, data in any pieces and final. With padding the outputs concatenated are the mode applied to the PKCS#7 padded message; without, the mode applied to the message if it is whole blocks, and an error otherwise. Decryption succeeds with m exactly if the data are whole blocks that decipher to the padding of m; what one context encrypted another decrypts, whatever the pieces and the histories. No update gives more than its input and one block, no final more than a block. The stream mode ciphers (CFB, OFB, CNT, CTR, CTR-ACPKM) on a new context give the mode applied to the whole message, with the meshing or section size last set. Parameters are refused before the first init and AEAD parameters always; stated key and IV lengths above the cipher's are refused.",
  "all histories of calls on a context (inits in both directions with or without key or IV, parameters, updates, finals, duplicates), keys, IVs, pieces below 2^31 - 16 bytes, padding and meshing values, 13 ciphers",
  "Partial blocks, held-back blocks, flags and directions left by earlier calls interact with every split of the data.",
  "gost_prov_cipher.c:cipher_newctx", "gost_prov_cipher.c:cipher_dupctx", "gost_prov_cipher.c:cipher_set_ctx_params", "gost_prov_cipher.c:cipher_encrypt_init", "gost_prov_cipher.c:cipher_decrypt_init", "gost_prov_cipher.c:cipher_update", "gost_prov_cipher.c:cipher_final", "gost_crypt.c:GOST_init_cipher", "gost_crypt.c:gost_cipher_init_param", "gost_crypt.c:gost_cipher_do_cbc", "gost_crypt.c:magma_cipher_do_cbc", "gost_grasshopper_cipher.c:gost_grasshopper_cipher_do_cbc")

p("Copies of MGM contexts are independent of their originals",
  "For every history of EVP calls over any number of contexts of an MGM cipher (initialise with key and/or IV, associated data, data, final, tag and IV-length controls, copy, reset, free, in any order) no memory is misused and every call returns what it would return if each context held its state by value: after EVP_CIPHER_CTX_copy neither the original nor the copy is affected by what is done with the other (new key, new IV, reset, free), and each can be freed.",
  "all histories of calls over any number of contexts, two MGM ciphers, all keys, IVs and data",
  "Sharing between a copy and its original shows only in particular interleavings of re-keying, freeing and use across contexts.",
  "gost_gost2015.c:gost_mgm128_init", "gost_grasshopper_cipher.c:gost_grasshopper_mgm_ctrl", "gost_grasshopper_cipher.c:gost_grasshopper_mgm_cleanup", "gost_grasshopper_cipher.c:gost_grasshopper_cipher_init_mgm", "gost_crypt.c:gost_magma_mgm_ctrl", "gost_crypt.c:gost_magma_mgm_cleanup", "gost_crypt.c:gost_magma_cipher_init_mgm", "gost_grasshopper_cipher.c:grasshopper_mgm_cipher", "gost_crypt.c:magma_mgm_cipher")

p("Copies of CTR-ACPKM-OMAC contexts are independent of their originals",
  "For every history of EVP calls over any number of contexts of a CTR-ACPKM-OMAC cipher (initialise with any key and IV, data, final, tags, algorithm parameters, section size, copy, reset, free, in any order) every call returns and writes what it would if each context held its cipher and MAC state by value, so nothing done with a copy or its original shows in the other, and no memory is used after it was freed, freed twice or reached through NULL - except that using a freed context, copying a context onto itself, or giving data to a context that has no key is undefined.",
  "all histories of calls over any number of contexts, two ciphers, all keys, IVs, data and random draws",
  "Sharing of the MAC state between a copy and its original shows only in particular interleavings of data, re-keying and freeing across contexts.",
  "gost_crypt.c:magma_cipher_ctl_acpkm_omac", "gost_crypt.c:magma_cipher_init_ctr_acpkm_omac", "gost_crypt.c:magma_cipher_do_ctr_acpkm_omac", "gost_crypt.c:gost_cipher_cleanup", "gost_grasshopper_cipher.c:gost_grasshopper_cipher_ctl", "gost_grasshopper_cipher.c:gost_grasshopper_cipher_init_ctracpkm_omac", "gost_grasshopper_cipher.c:gost_grasshopper_cipher_destroy_ctr", "gost_gost2015.c:gost2015_acpkm_omac_init")

p("The memory of CTR-ACPKM-OMAC contexts is freed with them",
  "After any history of calls over any number of contexts of a CTR-ACPKM-OMAC cipher at whose end all contexts are freed or reset, none of the digest contexts the cipher allocated (they hold the derived MAC key) is still allocated.",
  "all histories of calls over any number of contexts, two ciphers, all keys, IVs, data and random draws",
  "A leak depends on the order of initialisations, failures and copies over the life of a context and changes no result.",
  "gost_crypt.c:magma_cipher_init_ctr_acpkm_omac", "gost_crypt.c:gost_cipher_cleanup", "gost_crypt.c:magma_cipher_ctl_acpkm_omac", "gost_grasshopper_cipher.c:gost_grasshopper_cipher_init_ctracpkm_omac", "gost_grasshopper_cipher.c:gost_grasshopper_cipher_destroy_ctr", "gost_grasshopper_cipher.c:gost_grasshopper_cipher_cleanup", "gost_grasshopper_cipher.c:gost_grasshopper_cipher_ctl")

p("MGM through the provider is the standard's, on contexts with any past, and accepts no data without a tag",
  "For the two MGM ciphers of the provider take a context with any history of calls, then an init with a 32-byte key and a nonce of the block length, associated data and message in any pieces, final. Encryption: every call succeeds, the output is the standard's ciphertext and the tag parameter of any size from 1 to the block length is the standard's tag truncated. Decryption: the output is the standard's decryption, and after the tag parameter was set the final call succeeds exactly if the tag is the standard's. In a history in which no tag was supplied and no message finished, final calls of decryptions fail and no tag is given out. Tags are accepted only with the block's length and only by decrypting contexts; before the first init all calls and parameters are refused; stated lengths above 32 and the block length are refused without effect.",
  "all histories of calls on a context, keys, nonces, associated data, messages within the mode's limit in pieces of at most 2^31-1 bytes, tags, both ciphers",
  "State left by earlier sessions (tag, nonce, direction) interacts with every later sequence of calls.",
  "gost_prov_cipher.c:cipher_set_ctx_params", "gost_prov_cipher.c:cipher_get_ctx_params", "gost_prov_cipher.c:cipher_encrypt_init", "gost_prov_cipher.c:cipher_decrypt_init", "gost_prov_cipher.c:cipher_update", "gost_prov_cipher.c:cipher_final", "gost_grasshopper_cipher.c:gost_grasshopper_cipher_do_mgm", "gost_grasshopper_cipher.c:gost_grasshopper_mgm_ctrl", "gost_crypt.c:gost_magma_cipher_do_mgm", "gost_crypt.c:gost_magma_mgm_ctrl")

p("A nonce length an MGM cipher accepts is the nonce length it uses",
  "After EVP_CTRL_AEAD_SET_IVLEN (or the provider parameter ivlen) accepted a length n, the first block of ciphertext depends on the first n bytes of the nonce buffer and on no byte behind them: two buffers give the same ciphertext exactly if their first n bytes agree (up to the reserved first bit).",
  "all contexts, lengths, keys, nonce buffers, blocks of data, both ciphers",
  "The effect of a length is a statement about all pairs of nonces.",
  "gost_gost2015.c:gost_mgm128_setiv", "gost_grasshopper_cipher.c:gost_grasshopper_mgm_ctrl", "gost_crypt.c:gost_magma_mgm_ctrl", "gost_grasshopper_cipher.c:gost_grasshopper_cipher_init_mgm", "gost_crypt.c:gost_magma_cipher_init_mgm", "gost_prov_cipher.c:cipher_set_ctx_params")

p("MGM notices every change inside one block, except possibly at one block number per key and nonce",
  "Take any key, nonce, associated data and message, encrypt them with an MGM cipher and change bytes of one block of the associated data or of the ciphertext in any way: decrypting the result with the original tag is accepted exactly if the coefficient E(Z_i) of that block is the zero block, which for a key and nonce is so for at most one block number. Likewise appending zero bytes within the last block changes the tag unless the coefficient of the block of lengths is zero. This rests on the multiplications being those of fields: the reduction polynomials X^64+X^4+X^3+X+1 and X^128+X^7+X^2+X+1 are irreducible, a product is zero only if a factor is, and every non-zero block has an inverse.",
  "all keys, nonces, associated data, messages, chunkings, positions and values of the change; all pairs of blocks of 64 and 128 bits; both MGM ciphers",
  "There are 2^128 and 2^256 pairs of factors; a reducible polynomial would have rare zero divisors that no sample hits, and forgeries only for particular changes.",
  "gost_crypt.c:gf64_mul", "gost_grasshopper_cipher.c:gf128_mul_uint64", "gost_gost2015.c:gost_mgm128_aad", "gost_gost2015.c:gost_mgm128_encrypt", "gost_gost2015.c:gost_mgm128_decrypt", "gost_gost2015.c:gost_mgm128_finish")

p("Ciphers work in place and write nothing but their output",
  "For every cipher of the engine and every call with data, when input and output are the same buffer, or two buffers that do not overlap, the output buffer afterwards holds exactly the bytes the mode computes from what the input buffer held before the call, no byte of memory outside the output buffer is changed (so a separate input buffer is left as it was), and the context is in the same state in both cases. The CTR-ACPKM-OMAC ciphers authenticate the plaintext in both cases; an MGM call that fails writes nothing.",
  "all memories, addresses (equal or not overlapping), lengths (whole blocks for ECB and CBC), contexts in the middle of a stream, keys, directions; 16 cipher callbacks",
  "Whether a byte is overwritten before its last use depends on the addresses, on the direction, and on how the data are split over blocks and calls.",
  "gost_crypt.c:gost_cipher_do_cbc", "gost_crypt.c:gost_cipher_do_cfb", "gost_crypt.c:gost_cipher_do_cnt", "gost_crypt.c:magma_cipher_do_ecb", "gost_crypt.c:magma_cipher_do_cbc", "gost_crypt.c:magma_cipher_do_ctr", "gost_crypt.c:magma_cipher_do_ctr_acpkm_omac", "gost_crypt.c:gost_magma_cipher_do_mgm", "gost_grasshopper_cipher.c:gost_grasshopper_cipher_do_ecb", "gost_grasshopper_cipher.c:gost_grasshopper_cipher_do_cbc", "gost_grasshopper_cipher.c:gost_grasshopper_cipher_do_ctr", "gost_grasshopper_cipher.c:gost_grasshopper_cipher_do_ctracpkm", "gost_grasshopper_cipher.c:gost_grasshopper_cipher_do_ctracpkm_omac", "gost_grasshopper_cipher.c:gost_grasshopper_cipher_do_ofb", "gost_grasshopper_cipher.c:gost_grasshopper_cipher_do_cfb", "gost_grasshopper_cipher.c:gost_grasshopper_cipher_do_mgm", "gost_gost2015.c:gost_mgm128_encrypt", "gost_gost2015.c:gost_mgm128_decrypt")

p("Threads that ask for parameter sets at the same time get the right curves",
  "Any number of threads each ask for a sequence of parameter sets (keys created, decoded or given parameters); the accesses to the shared cache of groups interleave in any order. Every key gets the curve its parameter set names, under the name that was asked for; unknown parameter sets are refused; no thread uses a NULL pointer; every thread gets its answers within four of its own steps per request, whatever the others do; every group that was made stays reachable through the table and is freed when the engine is destroyed.",
  "all numbers of threads, request sequences (known and unknown parameter sets, several names of one curve), interleavings of the accesses to shared memory",
  "The outcome depends on the schedule; the wrong ones need a switch between two adjacent statements.",
  "gost_ec_sign.c:fill_GOST_EC_params", "gost_ec_sign.c:gost_nid2params", "gost_ec_sign.c:free_cached_groups", "gost_params.c:R3410_2001_paramset")

p("Threads that look up engine parameters at the same time read valid strings with the right text",
  "Any number of threads look up the parameters CRYPT_PARAMS, GOST_PBE_HMAC and GOST_PK_FORMAT (and use the string they get) or set them by control commands, in any order and interleaving. No thread reads or frees memory that was freed before, and every lookup delivers the value of the environment if the variable is set.",
  "all numbers of threads, sequences of lookups and sets, environments, interleavings of the accesses to the shared table and strings",
  "The outcome depends on the schedule; use after free shows only when a free falls between a lookup and the use of its result.",
  "gost_ctl.c:get_gost_engine_param", "gost_ctl.c:gost_set_default_param", "gost_ctl.c:gost_control_func", "gost_crypt.c:get_encryption_params", "gost_ameth.c:priv_encode_gost")

p("Every algorithm the provider lists can be fetched",
  "For every cipher, digest and MAC the provider lists, reading its dispatch table the way libcrypto does - entry after entry until the one with number 0 - stays within the table and finds the functions libcrypto requires (constructor, destructor, initialisation, update, final).",
  "all algorithms listed for all operations, all contents of the memory behind the tables",
  "What a read past the end of a table meets depends on what the linker put there; a test sees one layout.",
  "gost_prov.c:gost_operation", "gost_prov_cipher.c:MAKE_FUNCTIONS", "gost_prov_digest.c:MAKE_FUNCTIONS", "gost_prov_mac.c:MAKE_FUNCTIONS")

p("Instances of the provider can be loaded, used and unloaded in any order without touching freed objects",
  "An application loads the provider into any number of library contexts, fetches algorithms, makes, duplicates, uses and frees cipher, digest and MAC contexts, lets operations report errors, and unloads instances that have no contexts, in any order, and any allocation may fail. No object is used or freed after it was freed, and when all instances are gone nothing they allocated is left.",
  "all histories of loads, unloads and uses of any number of instances, all patterns of allocation failures",
  "All histories and all failure points; objects shared between instances matter only in certain orders.",
  "gost_prov.c:provider_ctx_new", "gost_prov.c:provider_ctx_free", "gost_prov.c:gost_teardown", "gost_prov.c:ERR_GOST_error", "gost_eng.c:populate_gost_engine", "gost_eng.c:gost_engine_destroy", "gost_eng.c:free_NIDs", "gost_crypt.c:GOST_init_cipher", "gost_md.c:GOST_init_digest", "gost_prov_cipher.c:cipher_newctx", "gost_prov_mac.c:mac_newctx")

p("The byte order of the host does not change results",
  "Every function that is compiled differently for big-endian hosts or for the kinds of x86 gives the same bytes for the same bytes on all of them: Streebog digests for every sequence of update calls, the products and length blocks of MGM, KDF_TREE counters and lengths, TLSTREE keys. So two hosts of different kind interoperate.",
  "all inputs of the functions concerned, all record sequence numbers, all build variants of the hash",
  "A test runs on one host; the other branches are not even compiled, and the differences show for some inputs only.",
  "gosthash2012.c:g", "gosthash2012.c:add512", "gosthash2012.c:stage3", "gosthash2012_ref.h:XLPS", "gosthash2012_sse2.h:EXTRACT32", "gosthash2012_precalc.h:Ax", "gosthash2012_const.h:C", "gost_crypt.c:gf64_mul", "gost_grasshopper_cipher.c:gf128_mul_uint64", "gost_gost2015.c:gost_mgm128_finish", "gost_keyexpimp.c:be32", "gost_keyexpimp.c:gost_tlstree")

p("Printed keys can be read back and public printing does not show the private key",
  "The text printed for a private key determines the private number (or says it is undefined), both coordinates of the public point and the name of the parameter set; the text for a public key determines the point and the name and has no private line. What is printed for a public key or for parameters does not depend on the private key. Printing fails exactly when there is no group or, for keys, no finite public point.",
  "all keys, all sizes of numbers, all indentations, all earlier contents of the output",
  "All values of the numbers; that the public text does not depend on the private key compares all pairs of keys.",
  "gost_ameth.c:print_gost_priv", "gost_ameth.c:print_gost_ec_pub", "gost_ameth.c:print_gost_ec_param", "gost_ameth.c:print_gost_ec")

p("Calls erase the secrets they computed from memory they give back",
  "When a call that computes secrets - key agreement, key transport, key export and import, key meshing and ACPKM, making and freeing MAC keys, cleaning cipher contexts - has returned, on whatever path and with whatever result, the stack buffers it used and the heap blocks it freed do not contain those secrets or anything from which they can be computed.",
  "all inputs, keys and contexts, all paths through the functions including errors",
  "Tests look at results, not at memory that was given back; an error path that skips the erasure needs the failing input.",
  "gost_keyexpimp.c:gost_kimp15", "gost_keyexpimp.c:gost_kexp15", "gost_ec_keyx.c:VKO_compute_key", "gost_ec_keyx.c:gost_keg", "gost_ec_keyx.c:pkey_GOST_ECcp_encrypt", "gost_ec_keyx.c:pkey_GOST_ECcp_decrypt", "gost_ec_keyx.c:pkey_gost2018_encrypt", "gost_ec_keyx.c:pkey_gost2018_decrypt", "gost89.c:cryptopro_key_meshing", "gost89.c:acpkm_magma_key_meshing", "gost89.c:gost_destroy", "gost_grasshopper_cipher.c:acpkm_next", "gost_grasshopper_cipher.c:gost_grasshopper_cipher_cleanup", "gost_pmeth.c:pkey_gost_mac_cleanup", "gost_ameth.c:mackey_free_gost")

p("The engine can be loaded, used, unloaded and loaded again without touching freed objects",
  "An application loads the engine, looks its algorithms up by name, starts operations with the engine given or chosen by libcrypto, unloads the engine (it goes when the last operation has ended) and loads it again, in any order, and any allocation may fail. No object is used or freed after it was freed; the process does not crash; a load while the engine is loaded is refused without effect; a load with enough memory succeeds; while the engine is loaded every name stands for the method the engine gives; when it is gone nothing it allocated is left.",
  "all histories of loads, unloads, lookups and operations, all patterns of allocation failures",
  "All histories and all failure points; names and tables that outlive the engine matter only in certain orders.",
  "gost_eng.c:ENGINE_load_gost", "gost_eng.c:make_gost_engine", "gost_eng.c:check_gost_engine", "gost_eng.c:bind_gost_engine", "gost_eng.c:gost_engine_destroy", "gost_eng.c:populate_gost_engine", "gost_crypt.c:GOST_init_cipher", "gost_md.c:GOST_init_digest")

p("A call frees what it allocated, exactly once, whatever fails",
  "Every object a call allocates is, when the call returns, either freed or in the hands of the caller (or of an object that lives on), one of the two and once; objects of the caller are neither freed nor given away; nothing is done to an object after it was freed; no NULL pointer is followed. This holds on every path: for every allocation and every library call that can fail, for every length and type, for every number of rounds of the loops.",
  "all paths through the signature, key agreement, key transport, key encoding and context functions, all combinations of failures, all numbers of loop rounds",
  "Failure paths need an allocation or a library call to fail at one point of many; a leak or a second free shows only there, and the combinations are too many to inject.",
  "gost_ec_sign.c:fill_GOST_EC_params", "gost_ec_sign.c:gost_ec_sign", "gost_ec_sign.c:gost_ec_verify", "gost_ec_sign.c:gost_ec_keygen", "gost_ec_keyx.c:VKO_compute_key", "gost_ec_keyx.c:pkey_GOST_ECcp_encrypt", "gost_ec_keyx.c:pkey_gost2018_encrypt", "gost_ec_keyx.c:pkey_GOST_ECcp_decrypt", "gost_keyexpimp.c:gost_kexp15", "gost_keyexpimp.c:gost_kdftree2012_256", "gost_ameth.c:gost_cms_set_kari_shared_info", "gost_ameth.c:priv_decode_gost", "gost_ameth.c:priv_encode_gost", "gost_ameth.c:pub_decode_gost_ec", "gost_ameth.c:pub_encode_gost_ec", "gost_pmeth.c:pkey_gost_init", "gost_pmeth.c:unpack_cp_signature", "gost_crypt.c:gost89_set_asn1_parameters", "gost_crypt.c:gost89_get_asn1_parameters")

p("A signed message is accepted by every receiver, and what a key says about itself is true",
  "For every key of the engine the signature size it reports is the size of the signatures made with it, and of all digests exactly its default digest is accepted. A message signed with a key pair (EVP_DigestSign with the default digest) gives either an error and untouched memory, or a signature of that size that EVP_DigestVerify accepts in every installation that received the encoded public key, whatever either did before. A byte string is accepted as signature of a message exactly when its halves are numbers the signing algorithm of the standard can form for the digest of the message with the private key and some nonce. Any other digest is refused. None of these calls ends the process, also for incomplete keys. A MAC key names a default digest its operations accept.",
  "all curves with curve files, both word sizes, all key types, keys, messages, random numbers, received strings, histories",
  "All keys, messages and nonces on all curves; that nothing else is accepted quantifies over all byte strings.",
  "gost_ameth.c:pkey_size_gost", "gost_ameth.c:pkey_bits_gost", "gost_ameth.c:pkey_ctrl_gost", "gost_ameth.c:mac_ctrl_gost", "gost_pmeth.c:pkey_gost_ctrl", "gost_pmeth.c:pkey_gost_ec_cp_sign", "gost_pmeth.c:pkey_gost_ec_cp_verify", "gost_ec_sign.c:gost_ec_sign", "gost_ec_sign.c:gost_ec_verify")

p("A signing or verifying call stays within the caller's buffer and returns",
  "EVP_PKEY_sign writes no byte outside the buffer whose length the caller gives in *siglen, nothing when it fails, and reports the length it wrote. EVP_PKEY_sign and EVP_PKEY_verify return to the caller whatever the digest given to them.",
  "all keys, digests of all lengths, all buffer lengths and memory contents, all received strings, all random numbers",
  "All buffer lengths and digest lengths; tests use the right ones.",
  "gost_pmeth.c:pkey_gost_ec_cp_sign", "gost_pmeth.c:pack_sign_cp", "gost_pmeth.c:pkey_gost_ec_cp_verify", "gost_ec_sign.c:gost_ec_sign", "gost_ec_sign.c:gost_ec_verify")

p("A public key received from anybody is safe to agree a secret with",
  "Whatever bytes are decoded as a public key, the result is a point of a built-in curve other than infinity, of an order that divides cofactor times q; on curves of cofactor 1 it is in the group of prime order q, and signatures are then checked as the standard says. Deriving a shared secret with it either fails (the UKM or the private number is a multiple of q, or the key has small order) or gives the digest of a point other than infinity of the group of order q; private keys that differ modulo q are answered by digests of different points, so no key that is sent can confine the secret or reveal the private number modulo small numbers. EVP_PKEY_public_check accepts a received key exactly when it is in the group of order q, EVP_PKEY_check a key pair exactly when the private number is below q and belongs to the public point.",
  "all byte strings decoded as keys after any history, all private keys, UKMs, digests, all built-in curves with curve files, both word sizes",
  "The hostile keys are arbitrary bytes and special points; that none of them confines the secret is a statement about all points of the curves.",
  "gost_ameth.c:pub_decode_gost_ec", "gost_ec_keyx.c:VKO_compute_key", "gost_ec_sign.c:gost_ec_point_mul", "gost_ec_sign.c:gost_ec_verify", "gost_pmeth.c:pkey_gost_check", "gost_params.c:R3410_2001_paramset")

p("Digest contexts are independent of each other, whatever is done with them",
  "An application has any number of EVP_MD_CTXs and initialises them for GOST R 34.11-94 or Streebog, feeds them, finishes them, copies them onto each other (onto new, used, finished or failed contexts), initialises them again for the same or another hash function and resets them, in any order, and any allocation may fail. Every call returns what it should: a finished context gives the standard's digest of exactly the bytes fed to it and, before a copy, to the context it was copied from. No memory is used after it was freed, freed twice or reached through a NULL pointer; the cipher context GOST R 34.11-94 works with is never that of another digest context, so resetting or using the source of a copy does not disturb the copy; when all contexts are reset no memory is left.",
  "all histories of calls on any number of contexts, all messages below 2^60 bytes, all patterns of allocation failures, all build variants of the hash",
  "All histories; a pointer into another context's data matters only when that context is used or freed later.",
  "gost_md.c:gost_digest_init", "gost_md.c:gost_digest_update", "gost_md.c:gost_digest_final", "gost_md.c:gost_digest_copy", "gost_md.c:gost_digest_cleanup", "gost_md2012.c:gost_digest_copy", "gost_md2012.c:gost_digest_cleanup", "gost_crypt.c:gost_imit_cleanup")

p("Algorithm parameters handed over through the provider are the parameters of the context",
  "The parameters a cipher context of the provider gives as alg_id_param are those of the context: given to another context, together with the key, they make it recover the data. Parameters made by a sender with the engine are understood by a receiver with the provider. All parameters given in one call are used if the call succeeds.",
  "all keys, IVs, messages and splits into calls, all contents of the stack, all sizes of the caller's buffer",
  "All IVs: that no reader can recover the IV quantifies over all readers; tests of the engine do not reach the provider's code.",
  "gost_prov_cipher.c:cipher_get_ctx_params", "gost_prov_cipher.c:cipher_set_ctx_params", "gost_grasshopper_cipher.c:gost_grasshopper_set_asn1_parameters", "gost_grasshopper_cipher.c:gost_grasshopper_get_asn1_parameters", "gost_crypt.c:gost89_set_asn1_parameters", "gost_crypt.c:gost89_get_asn1_parameters")

p("TLS records protected with the engine are those of the standards and arrive exactly as sent",
  "A connection uses a MAC key, an encryption key and an IV with a cipher suite of the engine, the MAC and cipher contexts being called as the record layer does. Whatever records are sent, every call succeeds and the fragments are those of RFC 9189 (Kuznyechik and Magma in CTR with OMAC, both keys derived with TLSTREE from the record number) or, for GOST 28147-89, one keystream and one MAC over the connection. The receiver accepts a sequence of fragments if and only if it is the one assigned to some contents, and returns these; hence a changed, dropped, repeated or moved record, or one of another type, is refused unless it is that very fragment. The MAC contexts made for the records leave no memory.",
  "all keys, IVs, sequences of records of any types and contents (empty ones included), received byte strings, random masks, earlier uses of the contexts, also past the wrap of the sequence number",
  "All sequences of records and of forged records; the keys change with the record number and the GOST 28147-89 state runs through the connection.",
  "gost_crypt.c:magma_cipher_ctl", "gost_grasshopper_cipher.c:gost_grasshopper_cipher_ctl", "gost_omac.c:omac_imit_ctrl", "gost_omac.c:omac_imit_copy", "gost_keyexpimp.c:gost_tlstree", "gost_crypt.c:gost_imit_update", "gost_crypt.c:gost_imit_final", "gost_crypt.c:gost_cipher_do_cnt", "gost_pmeth.c:pkey_gost_mac_signctx")

p("A TLS connection never uses a keystream block twice",
  "In a connection with a Kuznyechik or Magma CTR suite every keystream block is the block cipher's value for a key and a counter block; for different blocks of the same or of different records these inputs differ: within the records that share a key the counter blocks differ (also when IV plus record number wraps), and across such windows equal keys would be a collision of two named computations of HMAC.",
  "all keys and IVs, all pairs of records below 2^64 and of blocks in them (below 2^32 for Magma, 2^64 for Kuznyechik)",
  "Reuse would show only for one pair of blocks among 2^128; two ciphertexts made with one keystream block give away the XOR of the plaintexts.",
  "gost_crypt.c:magma_cipher_ctl", "gost_grasshopper_cipher.c:gost_grasshopper_cipher_ctl", "gost_keyexpimp.c:gost_tlstree", "gost_crypt.c:magma_cipher_do_ctr", "gost_grasshopper_cipher.c:gost_grasshopper_cipher_do_ctr")

p("The path through a secret scalar multiplication does not depend on the secret",
  "Key generation, signing and VKO multiply a point by a secret number with point_mul_g or point_mul. Their branches, the indices of all array and table accesses, the routines called and the rounds of all loops are the same for every scalar and every point; the simultaneous multiplication used for verification, where nothing is secret, is not of this kind.",
  "all curves, all scalars (any bytes, any length), all points",
  "A test observes results or, with noise, the time of a few scalars; the claim compares the executions for all pairs of secrets, step by step.",
  "ecp_id_GostR3410_2001_CryptoPro_A_ParamSet.c:var_smul_rwnaf", "ecp_id_GostR3410_2001_CryptoPro_A_ParamSet.c:fixed_smul_cmb", "ecp_id_GostR3410_2001_CryptoPro_A_ParamSet.c:scalar_rwnaf", "ecp_id_GostR3410_2001_CryptoPro_A_ParamSet.c:precomp_wnaf", "ecp_id_GostR3410_2001_CryptoPro_A_ParamSet.c:var_smul_wnaf_two", "ecp_id_tc26_gost_3410_2012_256_paramSetA.c:var_smul_rwnaf")

p("The scalar multiplications stay inside their arrays and depend on nothing but their arguments",
  "point_mul, point_mul_g and point_mul_two keep digits of the scalars and multiples of the point in arrays on the stack, some of them not initialised, and read the table of multiples of the base point with indices made from the digits. Every access is inside its array, and the result is a function of the scalars and the point, whatever the memory held before.",
  "all curves, all scalars (any bytes), all points, all former contents of the memory",
  "An access outside, or to an entry not yet written, would happen only for certain digits, and its effect depends on the contents of the stack.",
  "ecp_id_GostR3410_2001_CryptoPro_A_ParamSet.c:var_smul_rwnaf", "ecp_id_GostR3410_2001_CryptoPro_A_ParamSet.c:fixed_smul_cmb", "ecp_id_GostR3410_2001_CryptoPro_A_ParamSet.c:var_smul_wnaf_two", "ecp_id_GostR3410_2001_CryptoPro_A_ParamSet.c:scalar_rwnaf", "ecp_id_GostR3410_2001_CryptoPro_A_ParamSet.c:scalar_wnaf", "ecp_id_GostR3410_2001_CryptoPro_A_ParamSet.c:scalar_get_bit", "ecp_id_GostR3410_2001_CryptoPro_A_ParamSet.c:precomp_wnaf")

p("The memory accesses of the block ciphers do not depend on the key",
  "The engine masks the words of a GOST 28147-89 or Magma key in memory; a user expects that what else runs on the machine learns nothing about the key from an encryption. Stated for the memory accesses of the encryption of one block: tables, order, number and indices are the same for all keys.",
  "all keys, masks, substitution tables and blocks",
  "Accesses are not seen by tests, and the claim is about all pairs of keys.",
  "gost89.c:f", "gost89.c:gostcrypt", "gost89.c:magmacrypt", "gost89.c:gost_key", "gost89.c:magma_key", "gost_grasshopper_core.c:grasshopper_encrypt_block", "gost_grasshopper_math.h:grasshopper_append128multi")

p("Threads that use an algorithm for the first time at the same time get complete methods",
  "The method object of a cipher or digest is made by the provider when it is first needed, on whatever thread, and kept in a variable without a lock. Whatever threads create contexts or ask for parameters of an algorithm, in whatever interleaving, and whatever allocations fail: a method a thread gets has all its settings and keeps them; no freed memory is used; without failures every call delivers a method, at most one is made for each thread, and a call returns after a fixed number of steps of its own thread.",
  "all numbers of threads and of calls, all interleavings, all patterns of allocation failures, all ciphers and digests",
  "The calls overlap only in the first microseconds of a process, once; a method with settings missing would crash or encrypt wrongly on one run among many.",
  "gost_crypt.c:GOST_init_cipher", "gost_md.c:GOST_init_digest", "gost_prov_cipher.c:cipher_newctx", "gost_prov_digest.c:digest_newctx", "gost_prov_mac.c:mac_newctx")

p("The DER structures are laid out as the standards say, are read back, and are never read beyond their end",
  "Key parameters, cipher parameters, masked keys and both key transport structures are written with the tags, order and object identifiers of the standards. What was written is read back to the same values whatever follows it; a structure that was cut off is refused; every string delivered is a part of the input; bytes after the structure are not looked at. What the other properties assume of the DER functions holds.",
  "all values of all structures of gost_asn1.c with lengths an int can hold, all inputs to the decoders (definite lengths), all trailing bytes, all cuts",
  "Lengths change form at 128, 256, 65536 and 2^24, fields are optional, and the inputs of the decoders are arbitrary bytes from a peer.",
  "gost_asn1.c:GOST_KEY_TRANSPORT", "gost_asn1.c:GOST_KEY_INFO", "gost_asn1.c:GOST_KEY_AGREEMENT_INFO", "gost_asn1.c:GOST_KEY_PARAMS", "gost_asn1.c:GOST_CIPHER_PARAMS", "gost_asn1.c:GOST2015_CIPHER_PARAMS", "gost_asn1.c:MASKED_GOST_KEY", "gost_asn1.c:PSKeyTransport_gost")

p("A private key is the number its octets hold, in each of the formats, and nothing but the octets is read",
  "The octets of a PKCS#8 structure hold the private number bare (least significant byte first, possibly masked, followed by masks), as an OCTET STRING, as an INTEGER, or in a SEQUENCE together with a public key. In every one of these formats the key is the number written there, and it does not depend on, and no read touches, memory behind the octets. The structure the engine writes is, octet by octet, that of the standards, and is read back to the same key whatever follows it.",
  "all octets, all numbers, all masks and public keys in the SEQUENCE, all kinds of key and built-in curves, all contents of the memory behind",
  "The formats are told apart by length and first byte, so that only octets of certain lengths are mistaken for another format, and what is read beyond a short buffer depends on the heap.",
  "gost_ameth.c:priv_decode_gost", "gost_ameth.c:unmask_priv_key", "gost_asn1.c:MASKED_GOST_KEY")

out = os.path.join(os.path.dirname(os.path.dirname(os.path.abspath(__file__))), "properties.jsonl")
with open(out, "w") as f:
    for r in P: f.write(json.dumps(r, ensure_ascii=False) + "\n")
print(len(P))
