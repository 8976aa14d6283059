import Verif.Model.BigEndian
import Verif.Lemmas.StreebogBE
import Verif.Lemmas.MgmRun
import Verif.Props.Streebog
import Verif.Props.Tls

/-!
# C78: the byte order of the host does not change results

For each function that is compiled differently on big-endian hosts: the big-endian variant, acting on the same bytes,
gives the same bytes as the little-endian one.  It does not for `gost_tlstree`.
-/

namespace Gost
open Spec

/-- **C78.** The multiplication of Magma-MGM: same product bytes for all operands. -/
theorem C78_gf64_mul (a b : Bytes) : gf64_mulBE a b = gf64_mul a b := by
  simp only [gf64_mulBE, gf64_mul, ldBE64_eq, stBE64_eq]

/-- **C78.** The multiplication of Kuznyechik-MGM: same product bytes for all operands. -/
theorem C78_gf128_mul (a b : Bytes) : gf128_mul_uint64BE a b = gf128_mul_uint64 a b := by
  simp only [gf128_mul_uint64BE, gf128_mul_uint64, ldBE64_eq, stBE64_eq]

/-- **C78.** The length block of MGM: same bytes for all lengths. -/
theorem C78_mgm_length_block (bl lenA lenM : Nat) : mgmLenBlockBE bl lenA lenM = mgmLenBlock bl lenA lenM := by
  simp only [mgmLenBlockBE, mgmLenBlock, stBE64_eq, bswap_or_shift]

/-- **C78.** `be32` followed by reading the bytes of the result: the big-endian bytes of the number on either host. -/
theorem C78_be32 (bigEndian : Bool) (w : W32) : st32 bigEndian (be32 bigEndian w) = beBytes 4 w.toNat := by
  have h : ∀ w : W32, be32Bytes w = beBytes 4 w.toNat := by
    intro w
    have := w.isLt
    simp only [be32Bytes, beBytes, List.nil_append, List.cons_append]
    have hb : ∀ k, byteOf w k = BitVec.ofNat 8 (w.toNat / 2 ^ (8 * k)) := by
      intro k
      apply BitVec.eq_of_toNat_eq
      rw [byteOf, BitVec.toNat_setWidth, BitVec.toNat_ushiftRight, Nat.shiftRight_eq_div_pow, BitVec.toNat_ofNat]
    rw [hb, hb, hb, hb]
    simp only [Nat.div_div_eq_div_mul]
    norm_num
  cases bigEndian with
  | true => rw [← h]; rfl
  | false =>
    rw [← h]
    simp only [st32, be32, be32Bytes, Bool.false_eq_true, if_false, List.cons.injEq, and_true]
    refine ⟨?_, ?_, ?_, ?_⟩ <;>
    · apply BitVec.eq_of_getLsbD_eq
      intro i hi
      interval_cases i <;> simp [byteOf, BitVec.getLsbD_of_ge]

/-- **C78.** Streebog: any two builds (big- or little-endian host, SSE2 for either x86, portable, either addition) give the
same digest, that of the standard, for the same sequence of update calls; also when the data is split differently. -/
theorem C78_streebog (b b' : SbBuild) (chunks chunks' : List Bytes) (h : chunks.flatten = chunks'.flatten) :
    sbDigest b 256 chunks = sbDigest b' 256 chunks' ∧ sbDigest b 512 chunks = sbDigest b' 512 chunks' ∧
    sbDigest b 256 chunks = Streebog.hash256 chunks.flatten ∧ sbDigest b 512 chunks = Streebog.hash512 chunks.flatten :=
  ⟨C28_streebog_any_split b b' 256 (Or.inl rfl) _ _ h, C28_streebog_any_split b b' 512 (Or.inr rfl) _ _ h,
    C30_streebog256_is_standard b chunks, C30_streebog512_is_standard b chunks⟩

/-- **C78**, the compression function on a big-endian host is that of the standard for all operands of 64 bytes. -/
theorem C78_streebog_compression (h N m : Bytes) (hh : h.length = 64) (hN : N.length = 64) (hm : m.length = 64) :
    gRefBE h N m = Streebog.g N h m := by
  rw [gRefBE_eq]; exact gRef_eq h N m hh hN hm

/-- Witness: a big-endian build and a 32-bit SSE2 build, the same three bytes in different pieces. -/
example : sbDigest ⟨false, false, false, true⟩ 256 [[1, 2], [], [3]] = sbDigest ⟨true, false, true, false⟩ 256 [[1], [2, 3]] :=
  (C78_streebog _ _ [[1, 2], [], [3]] [[1], [2, 3]] rfl).1

/-! ## TLSTREE -/

/-- The key a big-endian host derives for record `seqno`: the diversification of RFC 9189 with the bytes of each of the
three seeds in reverse order. -/
def tlstreeReversed (hmac : Bytes → Bytes → Bytes) (n : OmacCipher) (key : Bytes) (seqno : Nat) : Bytes :=
  let lbl (d : Byte) : Bytes := [0x6c, 0x65, 0x76, 0x65, 0x6c, d]
  let k1 := kdf256 hmac key (lbl 0x31) (tlsSeed seqno (tlsShifts n).1).reverse
  let k2 := kdf256 hmac k1 (lbl 0x32) (tlsSeed seqno (tlsShifts n).2.1).reverse
  kdf256 hmac k2 (lbl 0x33) (tlsSeed seqno (tlsShifts n).2.2).reverse

theorem stBE64_reverse (w : W64) : stBE64 w = (stLE64 w).reverse := by
  simp only [stBE64, stLE64, show List.range 8 = [0,1,2,3,4,5,6,7] from rfl, List.map_cons, List.map_nil]
  rfl

theorem ldBE64_reverse (b : Bytes) (h : b.length = 8) : ldBE64 b.reverse = ldLE64 b := by
  obtain ⟨b0, b1, b2, b3, b4, b5, b6, b7, rfl⟩ := list8 h
  rw [ldBE64_eq]
  exact BSWAP64_ld b7 b6 b5 b4 b3 b2 b1 b0

/-- **C78**, what a big-endian host computes for TLSTREE: the seeds reversed. -/
theorem C78_tlstree_reversed_seeds (X : Crypto) (n : OmacCipher) (key seq : Bytes) (h : seq.length = 8) :
    gost_tlstreeBE X n key seq = some (tlstreeReversed X.hmac n key (beNat seq)) := by
  have ht : seq.take 8 = seq := List.take_of_length_le (by omega)
  cases n with
  | magma =>
    simp only [gost_tlstreeBE, tlsMasks, ht, ldBE64_reverse seq h, stBE64_reverse]
    rw [seed_eq seq h _ 38 (by decide) (by decide), seed_eq seq h _ 25 (by decide) (by decide),
      seed_eq seq h _ 12 (by decide) (by decide)]
    simp only [kdftree_one, Option.bind_eq_bind, Option.bind_some]
    rfl
  | kuznyechik =>
    simp only [gost_tlstreeBE, tlsMasks, ht, ldBE64_reverse seq h, stBE64_reverse]
    rw [seed_eq seq h _ 32 (by decide) (by decide), seed_eq seq h _ 19 (by decide) (by decide),
      seed_eq seq h _ 6 (by decide) (by decide)]
    simp only [kdftree_one, Option.bind_eq_bind, Option.bind_some]
    rfl

theorem tlsSeed_small (i s : Nat) (h : i < 2 ^ s) : tlsSeed i s = List.replicate 8 0 := by
  rw [tlsSeed, Nat.div_eq_of_lt h, Nat.zero_mul]
  decide

/-- **C78.** Within the first window (64 records for Kuznyechik, 4096 for Magma) both kinds of host derive the same key.
Missing: the later records, for which they do not (`C78_tlstree_later_records`). -/
theorem C78_tlstree_first_window_partial (X : Crypto) (n : OmacCipher) (key seq : Bytes) (h : seq.length = 8)
    (hw : beNat seq < tlsWindow n) : gost_tlstreeBE X n key seq = gost_tlstree X n key seq := by
  rw [C78_tlstree_reversed_seeds X n key seq h, tlstree_eq X n key seq h]
  cases n <;> simp only [tlsWindow] at hw <;> simp only [tlstreeReversed, tlstree, tlsShifts] <;>
    rw [tlsSeed_small _ _ (by omega), tlsSeed_small _ _ (by omega), tlsSeed_small _ _ (by omega)] <;> rfl

theorem tlsSeed_not_palindrome (i s : Nat) (h1 : 2 ^ s ≤ i) (h2 : i < 2 ^ 32) :
    (tlsSeed i s).reverse ≠ tlsSeed i s := by
  intro hr
  have hp : 0 < 2 ^ s := Nat.two_pow_pos s
  have hi : 1 ≤ i / 2 ^ s := (Nat.one_le_div_iff hp).mpr h1
  have hle := Nat.div_mul_le_self i (2 ^ s)
  have hge : 1 ≤ i / 2 ^ s * 2 ^ s := Nat.mul_pos hi hp
  have hv : i / 2 ^ s * 2 ^ s < 2 ^ 32 := by omega
  rw [tlsSeed] at hr
  generalize i / 2 ^ s * 2 ^ s = v at hr hge hv
  simp only [beBytes, Nat.div_div_eq_div_mul, List.nil_append, List.cons_append, List.reverse_cons,
    List.reverse_nil, List.cons.injEq, and_true] at hr
  obtain ⟨h0, h1', h2', h3', -⟩ := hr
  have e0 := congrArg BitVec.toNat h0
  have e1 := congrArg BitVec.toNat h1'
  have e2 := congrArg BitVec.toNat h2'
  have e3 := congrArg BitVec.toNat h3'
  simp only [BitVec.toNat_ofNat] at e0 e1 e2 e3
  norm_num at e0 e1 e2 e3
  rw [Nat.div_eq_of_lt (show v < 72057594037927936 by omega)] at e0
  rw [Nat.div_eq_of_lt (show v < 281474976710656 by omega)] at e1
  rw [Nat.div_eq_of_lt (show v < 1099511627776 by omega)] at e2
  rw [Nat.div_eq_of_lt (show v < 4294967296 by omega)] at e3
  omega

/-- The key of the last HMAC on a big-endian host. -/
def tlsLastKeyReversed (hmac : Bytes → Bytes → Bytes) (n : OmacCipher) (key : Bytes) (seqno : Nat) : Bytes :=
  kdf256 hmac (kdf256 hmac key [0x6c, 0x65, 0x76, 0x65, 0x6c, 0x31] (tlsSeed seqno (tlsShifts n).1).reverse)
    [0x6c, 0x65, 0x76, 0x65, 0x6c, 0x32] (tlsSeed seqno (tlsShifts n).2.1).reverse

/-- **C78** fails for later records: from the second window on (at least up to record `2^32`), the two kinds of host derive
different keys for the same record, unless HMAC collides: the last HMAC computations of the two hosts, whose messages differ, give the
same value. -/
theorem C78_tlstree_later_records (X : Crypto) (n : OmacCipher) (key seq : Bytes) (h : seq.length = 8)
    (hw : tlsWindow n ≤ beNat seq) (hm : beNat seq < 2 ^ 32) :
    tlsLastMessage (tlsSeed (beNat seq) (tlsShifts n).2.2).reverse ≠ tlsLastMessage (tlsSeed (beNat seq) (tlsShifts n).2.2) ∧
    (gost_tlstreeBE X n key seq = gost_tlstree X n key seq ↔
      X.hmac (tlsLastKeyReversed X.hmac n key (beNat seq)) (tlsLastMessage (tlsSeed (beNat seq) (tlsShifts n).2.2).reverse) =
        X.hmac (tlsLastKey X.hmac n key (beNat seq)) (tlsLastMessage (tlsSeed (beNat seq) (tlsShifts n).2.2))) := by
  constructor
  · intro hc
    refine tlsSeed_not_palindrome _ _ ?_ hm (tlsLastMessage_inj hc)
    cases n <;> exact hw
  · rw [C78_tlstree_reversed_seeds X n key seq h, tlstree_eq X n key seq h, ← tlstree_last X.hmac]
    exact ⟨fun e => Option.some.inj e, fun e => congrArg some e⟩

/-- Witness: record 64 of a Kuznyechik connection meets the hypotheses of `C78_tlstree_later_records`, record 63 those of
`C78_tlstree_first_window_partial`; the seeds of record 64 on the two kinds of host. -/
example : tlsWindow .kuznyechik ≤ beNat [0, 0, 0, 0, 0, 0, 0, 64] ∧ beNat [0, 0, 0, 0, 0, 0, 0, 64] < 2 ^ 32 ∧
    beNat [0, 0, 0, 0, 0, 0, 0, 63] < tlsWindow .kuznyechik ∧
    stBE64 (ldBE64 [64, 0, 0, 0, 0, 0, 0, 0] &&& (tlsMasks .kuznyechik).2.2) = [64, 0, 0, 0, 0, 0, 0, 0] ∧
    stLE64 (ldLE64 [0, 0, 0, 0, 0, 0, 0, 64] &&& (tlsMasks .kuznyechik).2.2) = [0, 0, 0, 0, 0, 0, 0, 64] := by
  decide +kernel

end Gost
