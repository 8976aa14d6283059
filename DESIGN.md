# Formal model of gost-engine/engine in Lean 4 — design

## 1. What this is

`/verif/lean` holds a Lean 4 model of the C code in `/repo` and theorems about
that model.  Each model definition carries a comment with the file and lines it
transcribes.  Property statements are in files separate from the model
(`Verif/Props/*.lean`) and from helper lemmas (`Verif/Lemmas/*.lean`); small
independent specifications are in `Verif/Spec/*.lean`.

Layout

| directory | content |
|---|---|
| `Verif/Model/*.lean` | transcription of C functions, with citations |
| `Verif/Spec/*.lean`  | independent specifications, not referring to the model's helpers |
| `Verif/Lemmas/*.lean`| proofs helper lemmas |
| `Verif/Props/*.lean` | the property theorems named in MANIFEST.json, each with a non-vacuity example |

## 2. Modelling conventions

* A C `unsigned char` is `BitVec 8`, `uint32_t`/`word32` is `BitVec 32`,
  `uint64_t` is `BitVec 64`; arithmetic wraps as in C.  Buffers are `List (BitVec 8)`;
  out-of-place output is returned instead of being written through a pointer.
* Contexts are structures; a C function that mutates a context returns the new one.
* C loops are structural recursions or well-founded recursions; loops that run
  over a buffer in three phases (rest of a partial block, whole blocks, tail)
  keep these three phases in the model and the theorems prove them equal to a
  byte-at-a-time or block-at-a-time specification.
* Functions supplied by OpenSSL (BIGNUM, EC group law when the generic code is used,
  HMAC, CMAC, RAND, memory allocation, ASN.1 templates) are parameters of the model.
  Properties quantify over every value of such a parameter, sometimes under an explicit
  hypothesis (e.g. group laws).  Allocation failure is not modelled unless stated.
* In-place operation (`in == out`) aliasing, `OPENSSL_cleanse`, error-queue
  contents and timing are not modelled; C90 looks at timing, in the usual leakage model (branches, indices, calls, rounds),
  for the scalar multiplications, and C92 at the table accesses of the block ciphers. (Streebog and the key schedules are left out.)

## 3. Trusted base

* The Lean 4 kernel (4.33.0) and the three standard axioms `propext`,
  `Classical.choice`, `Quot.sound`.  Every theorem in MANIFEST.json depends on these at most; no other
  axiom is used; no `native_decide`, no `bv_decide`.  `decide +kernel` is used for closed, finite facts
  (whole tables, certificates): the kernel evaluates them.
  Mathlib is used for algebra only (its theorems are kernel-checked too); the group of points of a
  curve is Mathlib's `WeierstrassCurve.Affine.Point`.
* The claim that each Lean definition transcribes the cited C lines: by reading,
  comment by comment.  Nothing was compiled or run.
* Generated modules.  `Model/KuzTables.lean`, `Model/StreebogTables.lean` (hex constants of the C tables) and
  `Model/Ecp/*.lean` (functions, constants and tables of the curve files) are produced from `/repo` by scripts in
  `/verif/tools`.  For `Model/Ecp` the script `tools/fiatparse.py` parses the C statements generated by fiat-crypto and
  prints them one by one as terms of `Model/Fiat.lean`; that parser is trusted.  `Lemmas/Ecp/*.lean` are generated
  certificates: they are not trusted, the kernel checks them.

### What stands for OpenSSL

| in the model | stands for | assumed |
|---|---|---|
| `Crypto` (`cmac`, `hmac`) | CMAC and HMAC of libcrypto over the engine's primitives | nothing, except where a theorem says so |
| `out0`, `buf0` | contents of an output buffer before the call | nothing |
| random generators (`draws`, `rng`) | `RAND_bytes`, `BN_rand_range` | values in range where stated; running out = failure |
| `EcGroup`, `EcGroup.Sound` | the group of a key | `Sound` is *proved* for every curve that has a curve file (`Props/EcpFiles.lean`); for the test curve of 512 bits it is OpenSSL's own code |
| `FeOps`, `FeOps.Sound` | the field of a curve file | proved for the eight files, both word sizes (C56) |
| `setAffine` | the check of `EC_POINT_set_affine_coordinates` | accepts exactly points of the curve |
| `DerIn`, `Asn1Codec`, `KeyDer`, `KtDer` and their `Sound` | d2i/i2d functions of ASN.1 templates | decoding inverts encoding (`Sound`), where stated; proved for the byte-level model of the templates (C94) |
| `opensslAccepts` | conditions under which `EC_GROUP_new_curve_GFp`, `EC_GROUP_set_generator` succeed | as written in its comment |
| `Files`, `ReadRun` | a file system, `read`/`fgets` | short reads in any pattern |
| `EVP_PKEY_new_mac_key`, `EVP_DigestSignInit`, `MacSign.update/final`, `cStrtol`, `MacTextFns` (`Model/MacPkey.lean`) | the calls libcrypto makes into the MAC methods, `strtol`, `OPENSSL_hexstr2buf`, `OBJ_txt2nid` | as written there; the last two are arbitrary functions |

## 4. Per-property plan

| id | what is modelled | how it is proved |
|---|---|---|
| C01 | `kboxinit`, `f`, `gostcrypt`, `gostdecrypt` with key+mask schedule | Feistel round inversion, 32 rounds; bytes<->words round trip |
| C02 | `gost_key_impl`, `gost_get_key`, `magma_get_key` | (k-m)+m=k in BitVec 32, list induction |
| C03 | `magmacrypt`, `magmadecrypt`, `magma_key` | reduction to C01 through byte reversal |
| C04 | parameter set constants, `kboxinit`, `f` | finite check on nibble tables + bit-level lemma for all words |
| C05 | `grasshopper_*` core with the real tables | C06 + LFSR inversion + S-box inversion + 10-round induction |
| C06 | the three tables, log/antilog tables, LFSR `l` | kernel evaluation over each whole table; linearity lifts to all states |
| C07 | `inc_counter`, `ctr64_inc`, `ctr128_inc` | induction on the byte list: value = value+1 mod 2^n |
| C08 | `gost_enc/dec(_cfb)` | induction on blocks |
| C09 | `gost_cipher_do_cbc` + mesh | simulation between encryptor and decryptor states, induction |
| C10 | `gost_cipher_do_cfb` + mesh | refinement to byte-step machine, simulation |
| C11 | `gost_cipher_do_cnt`, `gost_cnt_next` | refinement to byte-step machine |
| C12 | `gost_crypt_mesh`, `mac_block_mesh`, `gost_cnt_next` | invariant on the counter by induction over blocks |
| C13 | ECB/CBC of both ciphers | induction on blocks |
| C14 | CTR of both ciphers | refinement to byte-step machine |
| C15 | CTR-ACPKM of both ciphers | refinement to byte-step machine; closed form of the key index |
| C16 | OFB/CFB of Kuznyechik | refinement to byte-step machine |
| C17 | the init functions | proof where it holds, negation with a concrete history where it does not |
| C18 | `gost_imit_*` | refinement; negation for total length 8, proof otherwise |
| C19 | `gost_imit_*`, `gost_mac` | equality via common block fold |
| C20 | `get_mac` | bit-level; negation for non-byte sizes |
| C21 | `CMAC_ACPKM_*` | refinement to lazy-block specification |
| C22 | `gf64_mul`, `gf128_mul_uint64` | loop invariant against polynomial multiplication |
| C23-C27 | `gost_mgm128_*`, `gost2015_final_call` | refinement to byte-step machine; negation for empty AAD; boundary negation for lengths |
| C28-C30 | Streebog `hash_block`, `finish`, `add512` etc. (compression as transcribed) | refinement to one-shot spec |
| C31-C32 | `hash_block`, `finish_hash`, `add_blocks` of 34.11-94 | same |
| C33 | `gost_kexp15`, `gost_kimp15` over abstract CTR and OMAC | case analysis |
| C34 | key wrap functions over the real block cipher model | C08 + diversification determinism |
| C35 | `gost_kdftree2012_256` over abstract HMAC | injectivity of counter encoding |
| C36 | `gost_tlstree` masks | bit-level on 64-bit words |
| C37 | `decrement_sequence`, TLSTREE IV adjustment | induction with carry |
| C38-C39 | `gost_ec_sign`, `gost_ec_verify` over an abstract group of prime order | algebra in ZMod q |
| C40-C41 | `VKO_compute_key`, UKM part of `gost_keg` | algebra |
| C42-C43 | serialisers, `unmask_priv_key` | list/digit induction |
| C44 | `scalar_wnaf`, `scalar_rwnaf` | loop invariants over Int |
| C45 | all of the curve files (`Model/EcpScalar`, `EcpSmul`, `EcpProgs`, `EcpField`, `EcpFiles`, `Ecp/*`) and the dispatch `gost_ec_point_mul` | loop invariants over an abstract group; complete addition formulas by polynomial identities; Edwards map; table entries checked by the kernel against doublings of the base point; C56 for the field; then C38-C41 over the result |
| C56 | every fiat-crypto function of the files as a straight-line program over wrapping words (`Model/Fiat.lean`) | a checker for linear certificates (bounds, congruences) proved sound once (`Lemmas/FiatCert.lean`), certificates per function checked by the kernel; inversion chains by exponent bookkeeping |
| C57 | `Model/Ameth.lean`: encoding and decoding of keys and parameters in gost_ameth.c, parameter and key generation in gost_pmeth.c, over a DER coder parameter (`KeyDer`) | DER round trip lemmas (`Spec/Der.lean`), C42/C46 for numbers and curve lookup, C45 for the public point |
| C58 | `Model/KeyTransport.lean`: context data and controls of gost_pmeth.c, derivation, both key transport variants of gost_ec_keyx.c on keys of `Model/Ameth`, over a DER coder parameter (`KtDer`) | both sides compute the same VKO/KEG keys (C40, C41 through the curve files, C45); C34 and C33 for the wrapped key; C57 for the key sent along |
| C59 | `Model/PkeyStr.lean`: text controls of gost_pmeth.c; derivation and controls of `Model/KeyTransport.lean` | an invariant (`After`) relates the context to the UKM and digest last set, by induction on the call sequence; agreement from C40, C41 through the curve files (C45) |
| C60 | `Model/CmsKey.lean`: `pkey_ctrl_gost` and the CMS functions of gost_ameth.c on the contexts of `Model/KeyTransport.lean` | the call sequence of OpenSSL's CMS code is the specification; C58 for the two encrypt calls (the size depends on lengths only), C59 and C50 for key agreement |
| C61 | `Model/MacPkey.lean`: the MAC part of gost_pmeth.c (data, controls, text controls, key generation, signing) on the digests of `Model/Imit`, `Model/OmacAcpkm` and the OMAC digest of gost_omac.c | the data hold the last accepted settings, by induction over the history; sizes and data commute in each digest; C18 and C21 for the MACs |
| C62 | `Model/AcpkmOmac.lean`: both CTR-ACPKM-OMAC ciphers (init, data, final, tag attribute, copy) over the CTR-ACPKM modes and the OMAC key of C61 | an invariant of unused contexts over preparing calls; keystream closed forms of C14/C15 from the keyed state; the digest state as an accumulator over the chunks |
| C63 | `Model/ProvMac.lean`: gost_prov_mac.c whole (contexts, duplicates, parameters, init, update, final), over the MAC digests of C61 | every call keeps the kind of context and tracks the size (induction over the history); setting a key brings the digest data to one keyed state; from it C18, C21 and C61's sessions |
| C64 | `Model/ProvDigest.lean`: gost_prov_digest.c whole, with the digest methods of gost_md.c and gost_md2012.c | refinement: each engine context is related to the message of a specification context (invariants of C28-C31); every call preserves the relation; induction over the history |
| C65 | `Model/OmacHeap.lean`: the methods of gost_omac.c and gost_omac_acpkm.c with `cmac_ctx` as a pointer into a heap, and the EVP digest functions of OpenSSL calling them | refinement to a specification in which every context holds its state by value; invariant: pointers live and pairwise different, methods touch only their own object; induction over the history; leaks by an ownership invariant |
| C66 | `Model/ProvCipher.lean`: gost_prov_cipher.c for the ciphers without tag, over the cipher methods of `Model/GostModes.lean` and `Model/KuzModes.lean`, and the functions `EVP_CipherInit_ex`, `EVP_CipherUpdate`, `EVP_CipherFinal` of OpenSSL with block buffer, held-back block and padding | relation between the context and the data so far (`PlainRel`, `HeldRel`), preserved by every update; an invariant of the cipher data kept by every call (`run_keep`), so that any history can precede; the modes on whole blocks from C09-C16 |
| C67 | `Model/MgmHeap.lean`: the two MGM ciphers with `mctx->iv` and `mgm.key` as pointers into memory, and `EVP_CIPHER_CTX_copy`/`reset`/`free` of OpenSSL | specification by value; the memory invariant `MemWf` for all calls; refinement `MgmRel` for the calls that respect who borrows whose key schedule (`Borrow.Ok`); the negation and the exact behaviour for the others |
| C68 | `Model/AoHeap.lean`: the two CTR-ACPKM-OMAC ciphers with `omac_ctx` as a pointer into a heap of digest contexts, and the functions of OpenSSL that initialise, use, copy, reset and free contexts | specification by value (`aoValStep`); simulation `AoRel` through every call, in both directions (defined exactly when the specification is) |
| C69 | the same | the invariant of the simulation carries the list of digest contexts no context owns; its length is the number of losing calls; negation by re-keying |
| C70 | `Model/ProvAead.lean`: the provider functions for the two MGM ciphers over `Model/Mgm.lean`, with `EVP_CipherInit_ex`, update, final and controls of OpenSSL for custom AEAD ciphers | the state before the session is arbitrary, so the session theorems of C24/C27 apply after every history; no-tag claim by an invariant over histories; partial as C23: decryption without associated data |
| C71 | `mgm_ctrl_set_ivlen`, `gost_mgm128_setiv` of `Model/Mgm.lean`, and `Model/ProvAead.lean` | C26 gives which nonces collide; hence an accepted length is honoured iff it is the block length; negation for all other accepted lengths |
| C72 | `gf64_mul`, `gf128_mul_uint64` and the MGM model of C22–C27 | `Lemmas/GFField.lean`: residues as `AdjoinRoot`, order of `X` by kernel evaluation at the prime divisors of `2^n-1`, hence all non-zero residues are powers of `X`; linearity of the MGM sum; a single differing block contributes `H_i ⊗ Δ` |
| C73 | All callbacks that take data, rewritten on a memory with an input and an output pointer (`Model/Buffers.lean`), byte loops byte by byte | `Lemmas/Buffers.lean`: each loop on memory is the loop on bytes followed by one write (induction over the length, with the condition that the buffers are equal or disjoint carried along); composition of leftovers, blocks and tail |
| C74 | `Model/EcThreads.lean`: `fill_GOST_EC_params` cut at its accesses to the shared tables and groups; threads with request lists, schedules as lists of thread numbers | invariant over all schedules (heap objects keep the numbers of their entry; cached entries stay cached); measure for progress; at most one group per thread and entry by a second invariant; witnesses for wrong name and leak by evaluation |
| C75 | `Model/ParamThreads.lean`: `get_gost_engine_param`, `gost_set_default_param` and the use of the result, cut at accesses to `gost_params` and to the strings | warm table: memory is constant, hence everything; environment: invariant on strings; witnesses for use after free and double free by evaluation |
| C76 | `Model/ProvLife.lean`: the dispatch tables of gost_prov*.c as lists of function numbers and `gost_operation` | scan as libcrypto does; induction over the table with arbitrary memory behind it; false for digests and MACs |
| C77 | `Model/ProvLife.lean`: `provider_ctx_new/free`, `gost_teardown`, `ERR_GOST_error`, the engine inside (`populate_gost_engine`, `create_NIDs`, registration, `gost_engine_destroy`, `free_NIDs`), the method caches, contexts of the three files; every allocation succeeds or fails by an oracle | ownership invariant: the allocated objects are, with multiplicity, those of the variables, instances and contexts plus a list of lost ones; induction over histories; witnesses for two instances by evaluation |
| C78 | `Model/StreebogBE.lean` and `StreebogTablesBE.lean` (big-endian word accesses, the big-endian tables transcribed from the headers, `XLPS`, `g`), the 32-bit SSE2 core in `Model/Streebog.lean`, `Model/BigEndian.lean` (`gf64_mul`, `gf128_mul_uint64`, MGM length block, `be32`, `gost_tlstree` without `L_ENDIAN`) | the tables are the byte-swapped ones (kernel, entry by entry); each function is the little-endian one conjugated with byte swaps; C28–C30 and all properties over `SbBuild` now range over the big-endian and the i386 build too; TLSTREE: seeds reversed, palindromes |
| C79 | `Model/Print.lean`: the printing functions of `gost_ameth.c` as text transformers | a reader of labelled lines (`Spec/Print.lean`) gets back the numbers and the name; induction over hexadecimal digits; public printing is independent of the private field |
| C80 | `Model/Residue.lean`: the secret buffers of the functions of C23–C62 with their contents on return, and blocks freed | case split over all paths; the results agree with the models used elsewhere; what is not erased gives the secret back by a stated computation |
| C81 | `Model/EngLife.lean`: `ENGINE_load_gost` and `bind_gost_engine` on the objects of `Model/ProvLife.lean`, with libcrypto's engine list, tables by algorithm (no reference) and names; any allocation may fail | invariant over histories counting objects; violations as closed histories |
| C82 | `Model/Resources.lean`: 39 functions transcribed to a language of allocations, frees, uses, hand-overs, NULL tests, flags, loops, `goto` and `return`, with every other condition free; the trace of a call is the list of events on objects | `Spec/Resources.lean` (`Tidy`) is about traces only; a path-sensitive checker is proved sound for all executions (`post_sound`: induction over statements, loops closed under their body), then evaluated by the kernel; violations are explicit executions |
| C83 | `Model/DigestSign.lean`: what keys report (gost_ameth.c), sign and verify methods of gost_pmeth.c with return codes, memory and `OPENSSL_assert`, OpenSSL's `EVP_DigestSign`/`EVP_DigestVerify` around them | C38, C39 and C42 carried through the curve files (C45) and the key coder (C57); the standard's signing relation (`Spec.SignsWith`) on the curve's group is the specification on both sides |
| C84 | the same model, single calls | case analysis over the outcomes; the violated clauses are refuted on the standard's example curve |
| C85 | `Model/KeyCheck.lean` (`pkey_gost_check` over OpenSSL's EC_KEY_check_key), key decoding of `Model/Ameth.lean`, key agreement of `Model/KeyTransport.lean` | the number of points of each curve (C46) bounds the order of every decoded point; C40's formula carried through the curve files (C45); injectivity of multiples in a group of prime order |
| C86 | `Model/DigestHeap.lean`: digest data as objects of a heap with the pointer `cipher_ctx`, the methods of gost_md.c/gost_md2012.c under OpenSSL's EVP_Digest* functions, failing allocations | refinement of a specification of contexts as byte strings (`shStep`), with an ownership invariant: every context owns its data and the pointer in them points to themselves |
| C87 | `Model/ProvAsn1.lean`: `alg_id_param` of cipher_get_ctx_params/cipher_set_ctx_params over the ASN.1 methods of `Model/CipherAsn1.lean`; the stack is an arbitrary function | the provider's receiver reaches the context of C55's receiver; the bytes handed over are shown to be independent of the context |
| C88 | `Model/TlsRecord.lean`: the calls of libssl's record layer (MAC, then encryption; sequence numbers) over the OMAC contexts in their heap (`Model/OmacHeap.lean`), the ciphers' TLSTREE controls (C37), CNT (C11) and the GOST 28147-89 MAC (C18); libssl itself is only the order of calls | a suite refines `protect F` (fragment as a function of the records before it): invariants of the contexts per record, then induction over the records, generic in the suite; CMAC and HMAC are parameters |
| C89 | nothing new: C88's records, the keystream of `ctrCrypt` as values of the block cipher (`tlsInput`) | arithmetic of the counter blocks (IV plus record number above, block number below), windows of C36; equal keys across windows are reduced to an equation between two named HMAC computations |
| C90 | `Model/EcpTrace.lean`: the scalar multiplications as programs of a small language whose semantics records branches, indices, calls and rounds; field and point routines are single steps | a checker (conditions and indices made of public variables only), proved sound for all programs by induction (`secure_sound`) and evaluated on the programs; `C90_*_value`: the programs compute the model of C45 |
| C91 | the programs of C90, from any contents of the memory; the addresses of `Ev` are the indices used; the lengths are those declared in the files | a Hoare-style predicate on the trace with loop invariants (`Lemmas/CtBounds.lean`); for the simultaneous multiplication the bounds of the wNAF digits; `C91_*_memory`: the value theorems of C90 from any state |
| C92 | `Model/CipherTrace.lean`: block encryption of GOST 28147-89, Magma and Kuznyechik with the list of table accesses | false: a function computing the key from the accesses and the block, proved correct for all keys by induction over the rounds; partial: tables and order by the same induction |
| C93 | `Model/MethThreads.lean`: `GOST_init_cipher`, `GOST_init_digest` as small steps (every access to the shared member and every `EVP_*_meth_*` call), any number of threads, allocation failures by an oracle | ownership invariant (an object under construction is reached by its maker only), counting invariant for the number of methods, decreasing measure for the steps; induction over schedules. Sequential consistency is assumed: in C the unsynchronised accesses are a data race |
| C94 | `Model/Asn1.lean`: the templates of gost_asn1.c as i2d/d2i carry them out on bytes (DER out; in: definite lengths, also longer than needed; no indefinite lengths, no strings in pieces) | round trips by the tag-length-value lemma for all four forms of the length; appending lemma for what follows and for cuts; infix lemmas; `Spec/Der.lean`, `Spec/Oid.lean` (identifiers as arcs) for the layout; `*_sound` discharge the `Sound` assumptions of C55, C57, C58 |
| C95 | `Model/PrivBytes.lean`: unmask_priv_key and priv_decode_gost with the memory the octets lie in and the offsets read (partial: three findings); `Model/Pkcs8.lean`: the PrivateKeyInfo around them (attributes skipped) | the memory model agrees with the model of C43 whenever there is a byte; bounds by induction on the masks; formats on the bytes of `Spec/Der.lean`, `Spec/DerInt.lean` through the decoders of C94; the whole structure written is `privateKeyOctets` and is read back (C57 with the DER assumptions discharged) |
| C46 | the two tables, `gost_nid2params`, the cache of groups in `fill_GOST_EC_params` | primality by Pocklington and elliptic curve certificates checked by the kernel; order and number of points in Mathlib's group; induction over the history |
| C47-C50 | parameter/ctrl functions, wrap accumulation | case analysis, induction on call sequences |
| C51-C53 | `gost_ctl.c`, `gost_eng.c` method table, gostsum | history induction, table check, string lemmas |
| C54 | `gostcrypt`, `f`, `kboxinit` against a Feistel network with nibble substitutions | table lemma for all words, 32 rounds |
| C55 | init, parameter and data functions of sender and receiver (`Model/CipherAsn1.lean`) | keystream closed forms of C10-C15 for both sides |

Properties found false of the code are kept, and the negation is proved with a
concrete witness next to the strongest true variant (named `_partial`).

## 5. What is not modelled

Provider glue (`gost_prov*.c`) except the MACs (`gost_prov_mac.c`, C63), digests (`gost_prov_digest.c`, C64), ciphers (`gost_prov_cipher.c`: those without tag C66, MGM C70
and C71, algorithm parameters C87), tables and instances (C76, C77); BER with indefinite lengths or strings in pieces (the other properties use abstract coders with the round-trip property, which C94
provides), INTEGER private keys that are negative numbers (OpenSSL delivers a negative BIGNUM, the model of C95 refuses), the printing and copying of ASN.1 objects; PKCS#12 integration; the floating-point state the i386 SSE2 build of Streebog leaves behind; memory management outside C65, C67-C69, C77, C82 (all objects of the
asymmetric code, on every path) and C86; the error queue; threads except the shared group in `fill_GOST_EC_params` (C74), the engine's
parameter store (C75) and the method objects (C93); residues of secrets in memory outside C80; what a caller's buffer length does outside C84 and the other properties that name it;
in-place aliasing except in the cipher callbacks (C73) and the curve files (there every aliasing pattern used by the code is
modelled: `locId` and the register maps of `Model/EcpProgs.lean`); libssl except the order of its calls on the contexts (C88).

## 6. Findings

Properties that are false of the code, each with a theorem exhibiting the failure:

* `get_mac` truncates wrongly when the number of bits is not a multiple of 8 (C20_truncation_false).
* GOST 28147-89 MAC: a message of exactly 8 bytes has a different MAC when delivered in two updates (C18_mac_any_chunking_false).
* Re-initialising cipher contexts keeps stream positions (C17_*_false); Magma and Kuznyechik CTR, OFB, CFB, GOST 28147-89 CNT, CFB.
* MGM decryption without an AAD call starts from stale state (C23_round_trip_false); tags stay readable across messages
  (C27_mgm_stale_tag); the length block at the exact limit is wrong (C25_length_block_false).
* S-box and meshing changes are accepted after data in CBC mode (C49_*_false).
* The Magma CTR-ACPKM-OMAC method is advertised but NULL (C52_pkey_methods_false).
* Malformed Magma ASN.1 parameters are reported as success (C47_magma_false); malformed GOST 28147-89 ones dereference NULL.
* GOST 28147-89 CNT parameters can never be loaded back (C48_gost89_cnt_false); Magma CTR data beyond one section are not
  recovered by a receiver that uses stored parameters (C55_magma_false).
* gostsum: names at the buffer limit, malformed lines and empty lines (C53_*_false).
* Edwards curves: a sum equal to the point of order 2 is returned as infinity (C45_two_reports_order2_as_infinity).
* Key generation reports success without producing a key when the random source fails (C57_keygen_failure_is_success); the
  names of one curve compare as different parameters (C57_aliases_compare_different); a 256-bit key type on a 512-bit curve
  is accepted and signs with zero bytes (C57_size_mismatch_accepted).
* Key transport: an output buffer that is too small frees the ephemeral key twice (C58_cp_small_buffer_double_free); strings of
  the wrong length in a received structure end the process (C58_cp_bad_length_aborts); a structure with a wrong MAC is rejected
  after the decrypted key was written to the caller's buffer (C58_cp_reject_writes_key); an ephemeral key that cannot be decoded
  counts as absent (C58_cp_undecodable_key_ignored); longer session keys are silently cut (C58_cp_key_truncated); a UKM shorter
  than an earlier one leaves bytes in use that are not sent (C58_2018_stale_ukm); a UKM that is too long is ignored
  (C58_2018_long_ukm_ignored).
* Text controls: the identifiers of the 256-bit parameter sets B, C and D are refused although their short names are accepted
  (C59_identifiers_refused); a VKO length that is not a number switches VKO off (C59_vko_not_a_number); a missing value crashes
  (C59_null_text_crashes).  `EVP_PKEY_derive` never looks at the length of the caller's buffer.
* CMS key agreement: a UKM of 8 bytes is accepted although only half a key is derived for it, and the IV is read behind the UKM
  (C60_kari_short_ukm); a recipient information with an undecodable originator key is freed twice (C60_kari_bad_key_freed_twice);
  one without a UKM crashes the recipient (C60_kari_no_ukm_crashes).
* MAC keys: a size given as text is cut to 32 bits, so that "4294967300" sets 4 (C61_text_size_wraps); for Kuznyechik keys sizes
  9 to 16 are accepted by command and refused as text (C61_kuznyechik_text_size); a Kuznyechik key with the Magma digest reports 16
  bytes and writes 8 (C61_kuznyechik_key_magma_digest); a key set in the signing context ignores the parameter set chosen there
  (C61_raw_key_ignores_paramset).
* CTR-ACPKM-OMAC: if the random seed drawn for Magma is zero on a context without application data, keys are derived from it but another
  seed is stored (C62_magma_zero_seed); an initialisation with a new IV and no key does not restart the MAC (C62_new_iv_keeps_mac); data
  on a context without a key, or after a failed initialisation, dereference a null pointer (C62_no_key_crashes).
* Provider MACs: sizes that are no length of the MAC are accepted and reported, but the default number of bytes is written, so that size 0
  overruns a buffer of that size (C63_bad_size_accepted); section sizes given with the key argument of `EVP_MAC_init` crash on a context
  without key and are lost on one with a key (C63_sections_with_key_argument_crash, _actual); `EVP_MAC_init` without a key does not
  start a new message (C63_init_does_not_restart); a second final call of the OMACs crashes (C63_second_final_actual); an empty key is read as
  another structure (C63_empty_key_crashes); a key of the wrong length is refused but ends the message, and leaves the GOST 28147-89 MACs
  with the old key (C63_refused_key_actual); duplicates lose the size (C63_dup_actual).
* OMAC-ACPKM: refused section sizes are nevertheless in force in part (C21_bad_T_refused_actual).
* Provider digests: the length of a piece of data is cut to an `int`; a piece of 2^32 bytes is ignored, which gives messages with the same
  digest (C64_long_piece_collision), one of 2^31 bytes makes the digest read beyond the data (C64_long_piece_overrun).
* OMAC digests: setting a second key on a context loses the pointer to the first MAC state without freeing it
  (C65_omac_second_key_leaks, C65_omac_acpkm_second_key_leaks), so does a key set after the final call, at the next reset
  (C65_omac_key_after_final_leaks).
* Provider ciphers: parameters sent before the first init are refused (C66_parameters_need_a_cipher), also OpenSSL's own: EVP sends
  `padding` before the init of the provider when the flag was set on a context first; the padding flag survives a new init, so a context
  must be told its padding every time; a stated key or IV length that is too short is accepted and the full length read; a piece of
  2^32 bytes or more is cut to its length modulo 2^32 without an error (C66_piece_too_long).
* MGM contexts: `EVP_CIPHER_CTX_copy` copies the pointer `mgm.key` to the key schedule inside the *original* and the pointer `mctx->iv` to the
  IV buffer inside the original (the ciphers have no `EVP_CIPH_CUSTOM_COPY`). The copy encrypts with whatever key the original is given later
  (C67_copy_follows_original), uses freed memory when the original is freed or reset (C67_copy_dangles), and for Kuznyechik freeing or resetting
  a copy always frees a pointer into the middle of the original context (C67_kuznyechik_copy_cannot_be_freed).
- CTR-ACPKM-OMAC: `omac_ctx` is overwritten without being freed when a keyed context is initialised with a key again
  (`gost_crypt.c` 531, `gost_grasshopper_cipher.c` 354): each re-keying leaks a digest context holding the old MAC key (C69_rekey_leaks).
  `EVP_CIPHER_CTX_copy` of a context without a key fails and leaks the digest context allocated for the copy (C69_failed_copy_leaks).
- MGM: `EVP_CTRL_AEAD_SET_IVLEN` (and the provider's `ivlen`) accepts every length from 1 to 16, but `gost_mgm128_setiv` ignores the length
  and copies a whole block (`gost_gost2015.c` 233). A shorter nonce makes the cipher read memory behind the caller's buffer into the nonce; for
  Magma a longer one is cut, so that different accepted nonces collide (C71_nonce_length_false, C71_magma_long_nonces_collide).
- `fill_GOST_EC_params` has no lock: two threads that use different names of one curve (CryptoPro-A and tc26-256-B, B and C, C and D) can get
  each other's name in the key, which then goes into encoded keys and certificates (C74_name_false); two first uses of a curve leak a group
  (C74_leak_false). Under sequential consistency the curve itself is always right.
- `get_gost_engine_param` frees and replaces the cached string without a lock (`gost_ctl.c` 53-54): with `CRYPT_PARAMS`, `GOST_PBE_HMAC` or
  `GOST_PK_FORMAT` in the environment two overlapping first lookups lead to use after free or double free (C75_first_lookup_false,
  C75_double_free_false); `ENGINE_ctrl` frees a string another thread may be reading (C75_set_false). One lookup of each parameter before
  threads start avoids the first (C75_after_startup_partial).
- The dispatch tables of the provider's digests and MACs have no end entry (`gost_prov_digest.c` 155-163, `gost_prov_mac.c` 307-324; those of
  the ciphers have one): every fetch of a digest or MAC reads past the end of the table (C76_digests_and_macs_false).
- The provider keeps its state in variables of the module. With the provider loaded into two library contexts of one process: unloading the one
  loaded last leaves `err_handle` pointing to freed memory (C77_stale_error_handle_false); unloading both frees the OIDs of the MGM modes twice,
  since `free_NIDs` does not clear `asn1` (C77_double_free_false); unloading either, or a second load that fails, frees the methods contexts of
  the other use (C77_method_freed_false, C77_failed_load_false); what the first registered is lost (C77_second_load_leaks_false).
- On big-endian hosts `gost_tlstree` reverses the sequence number into `seq` so that the masks apply to the right bits, but then passes the
  native bytes of the masked words as seeds: reversed with respect to RFC 9189. The keys of the first window (64 or 4096 records) are right, since
  their seeds are zero; later ones differ from those of a little-endian peer (C78_tlstree_later_records).
- `g` calls `_mm_empty` only `#ifndef __i386__` (`gosthash2012.c` lines 136-140), although it is the i386 variant that uses the MMX registers:
  after hashing, floating-point code on such a build finds a full x87 register stack. Not modelled.
* Secrets left in memory: the block freed by `VKO_compute_key` holds the shared point (C80_vko_point_left); the cipher contexts of CryptoPro key
  transport stay on the stack (C80_cp_decrypt_context_left, C80_cp_encrypt_context_left); Kuznyechik ACPKM leaves each new key on the stack
  (C80_kuznyechik_section_key_left; `gost_grasshopper_cipher_destroy` is never called); MAC keys stay in freed blocks (C80_mac_key_left).
- The engine never takes itself out of libcrypto: after it was unloaded (or a load failed half-way) the table of names has methods that were freed
  (C81_name_after_unload_false) and the tables by algorithm have the freed ENGINE in front, which the next operation that leaves the choice to
  libcrypto uses, even after the engine was loaded again (C81_reload_false, C81_failed_load_false). `EVP_add_digest(GOST_init_digest(…))` with the
  allocation failing reads through NULL (C81_digest_memory_crash_false); `EVP_add_cipher` checks. What libcrypto does with its tables is
  modelled from its documented behaviour, not from source in this sandbox.
- C82, freeing. `pkey_GOST_ECcp_encrypt` frees an ephemeral key before it encodes the result and again in the clean-up: a buffer that is too
  small (an error the function reports as such) gives a double free of the key (C82_transport_false). `gost_cms_set_kari_shared_info` hands bytes
  of the received message to a temporary `X509_PUBKEY` with a `set0` function; if the agreement then fails the clean-up frees them although the
  message still owns them, and if it succeeds the temporary is never freed (C82_cms_agreement_false). `gost89_get_asn1_parameters` does not test
  the result of `d2i_GOST_CIPHER_PARAMS` (C82_get_parameters_false). `gost_kdftree2012_256` leaks its HMAC context on a bad length,
  `pub_encode_gost_ec` the parameters of a key without public part, `pkey_gost2018_encrypt` the half-made ephemeral key, `priv_encode_gost` the
  buffer with the private key if the last step fails; under lack of memory further leaks and NULL uses (C82_memory_leaks_false,
  C82_memory_null_false). The transcription keeps the order of the statements and drops what does not touch objects; it is by hand and part
  of the trusted base, as is what each library function does with its arguments (`set0` takes ownership only on success, `get0` lends).
- C84, single signature calls. `pkey_gost_ec_cp_sign` never reads `*siglen`: a buffer that is too short is overrun (C84_short_buffer_false).
  `gost_ec_sign` and `gost_ec_verify` end the process by `OPENSSL_assert` for digests that are neither 32 nor 64 bytes long
  (C84_end_of_process_false); EVP_DigestSign/EVP_DigestVerify cannot reach that (C83_never_aborts). The length of the digest is not bound to the
  key: a 32-byte digest and its extension by 32 zero bytes have the same signatures (C84_extended_digest).
- C85, keys of small order. On tc26-256-A and tc26-512-C (cofactor 4) the decoder accepts points outside the group of order q, for instance the
  point of order 2, for which no private key exists (C85_low_order_key_decoded); VKO multiplies by the cofactor and then fails, so no secret is
  lost, but only `EVP_PKEY_public_check` tells. `EVP_PKEY_check` refuses key pairs whose private number is not below q (C85_pair_check), though
  such pairs are loaded and used.
- C86, MAC out of memory. `gost_imit_cleanup` (gost_crypt.c line 1650) clears its data without looking whether there are any (the digests look):
  when the allocation in `EVP_DigestInit_ex` for gost-mac fails, the `EVP_MD_CTX_reset` or `EVP_MD_CTX_free` that must follow writes through a
  NULL pointer (C86_mac_out_of_memory).
- C87, parameters through the provider. `cipher_get_ctx_params` (gost_prov_cipher.c line 130) passes `&der` where `der` is meant: the caller's buffer is
  filled with the bytes of the pointer (a heap address) and of the stack behind it, never with the parameters (C87_algid_actual, C87_algid_false).
  `cipher_set_ctx_params` returns after `alg_id_param`; other parameters of the same call are ignored with success (C87_others_ignored_false).
- C55, Magma MGM inherits `set_asn1_parameters`/`get_asn1_parameters` from the Magma template (gost_crypt.c lines 202-203, 254-267): storing the parameters
  succeeds with 12 zero bytes whatever the nonce, loading succeeds without setting a nonce (C55_magma_mgm_false, C55_magma_mgm_receiver_false).
* The table accesses of one block encryption show the key to an observer who knows the block, also when the key is masked in memory
  (C92_*_indices_show_key_false).
* `GOST_init_cipher` and `GOST_init_digest` are called without a lock on any thread (`newctx`, `get_params` of the provider): overlapping first calls
  make several methods, all but one of which are never freed (C93_leak_false); a failed allocation of one thread stores NULL, so that a call whose
  own allocations succeeded can deliver NULL (C93_own_success_false: line 131 of gost_crypt.c reads the member again).
* d2i does not insist on DER: a key transport structure has other encodings (a longer form of a length) that are read to the same value, also with
  bytes behind it (C94_not_unique, C94_kt_read).
* Empty private key octets in a PKCS#8 structure are accepted (gost_ameth.c line 613: 0 % key_len == 0): unmask_priv_key reads a key length of
  bytes behind the empty buffer, and these become the private key (C95_empty_octets_false); the same for a SEQUENCE whose first string is empty,
  lines 641-652 (C95_empty_masked_false).
* An INTEGER with contents two bytes shorter than the key has the length of a key and is taken for bare octets: every such number (one private key
  in about 2^16 to 2^24 written that way) is read as another number (C95_integer_false).
