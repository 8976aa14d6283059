import Verif.Props.EcKeyx

/-!
# C42, C43: serialisation of signatures and keys, masked private keys
-/

namespace Gost

open Spec (leNat beNat leBytes beBytes)

theorem num_bytes_le_iff (n len : Nat) : BN_num_bytes n ≤ len ↔ n < 256 ^ len := by
  induction len generalizing n with
  | zero =>
    unfold BN_num_bytes
    split <;> simp [*]
  | succ len ih =>
    unfold BN_num_bytes
    split
    · rename_i h; subst h; simp
    · rw [Nat.add_le_add_iff_right, ih, Nat.pow_succ]
      omega

theorem beBytes_pad (k len n : Nat) (h : n < 256 ^ len) : beBytes (k + len) n = zeros k ++ beBytes len n := by
  induction len generalizing n with
  | zero =>
    have : n = 0 := by simpa using h
    subst this
    show beBytes k 0 = _
    induction k with
    | zero => rfl
    | succ k ih =>
      simp only [beBytes, Nat.zero_div, ih, zeros, List.append_nil]
      rw [List.replicate_succ']
      rfl
  | succ len ih =>
    show beBytes (k + len) (n / 256) ++ _ = _
    rw [ih (n / 256) (by rw [Nat.pow_succ] at h; omega), List.append_assoc]
    rfl

/-- **C42**: storing a number into a buffer of `len` bytes fails, leaving the buffer alone, exactly when it does not fit;
otherwise the buffer holds its big-endian encoding. -/
theorem C42_store_bignum (n len : Nat) (buf : Bytes) :
    (256 ^ len ≤ n → store_bignum n buf len = (buf, 0)) ∧ (n < 256 ^ len → store_bignum n buf len = (beBytes len n, 1)) := by
  constructor
  · intro h
    have : len < BN_num_bytes n := by
      by_contra hc
      have := (num_bytes_le_iff n len).1 (by omega)
      omega
    simp [store_bignum, this]
  · intro h
    have h1 := (num_bytes_le_iff n len).2 h
    unfold store_bignum
    simp only
    rw [if_neg (by omega), ← beBytes_pad _ _ _ (lt_pow_num_bytes n), Nat.sub_add_cancel h1]

/-- **C42**: a stored number is read back. -/
theorem C42_store_then_read (n len : Nat) (buf : Bytes) (h : n < 256 ^ len) : beNat (store_bignum n buf len).1 = n := by
  rw [(C42_store_bignum n len buf).2 h, beNat_beBytes, Nat.mod_eq_of_lt h]

/-- **C42**: a packed signature is `s || r`, big-endian. -/
theorem C42_packed_layout (r s len : Nat) (hr : r < 256 ^ len) (hs : s < 256 ^ len) :
    pack_sign_cp (r, s) len = beBytes len s ++ beBytes len r := by
  unfold pack_sign_cp
  simp only
  rw [(C42_store_bignum s len _).2 hs, (C42_store_bignum r len _).2 hr]

/-- **C42**: unpacking a packed signature returns it, for all values that fit. -/
theorem C42_unpack_pack (r s len : Nat) (hr : r < 256 ^ len) (hs : s < 256 ^ len) :
    unpack_cp_signature (pack_sign_cp (r, s) len) = (r, s) := by
  rw [C42_packed_layout r s len hr hs]
  unfold unpack_cp_signature
  have hl : (beBytes len s ++ beBytes len r).length / 2 = len := by simp; omega
  simp only [hl]
  rw [List.drop_left' (by simp), List.take_of_length_le (l := beBytes len r) (by simp), List.take_left' (by simp)]
  simp [beNat_beBytes, Nat.mod_eq_of_lt hr, Nat.mod_eq_of_lt hs]

/-- **C42**: packing what was unpacked from an even-length signature gives the signature back: distinct signatures of one
length are distinct pairs. -/
theorem C42_pack_unpack (sig : Bytes) (len : Nat) (h : sig.length = 2 * len) :
    pack_sign_cp (unpack_cp_signature sig) len = sig := by
  have hh : sig.length / 2 = len := by omega
  have hd : (sig.drop len).length = len := by simp; omega
  have ht : (sig.take len).length = len := by simp; omega
  have h1 : beNat ((sig.drop len).take len) < 256 ^ len := by
    rw [List.take_of_length_le (by omega)]
    exact lt_of_lt_of_eq (beNat_lt _) (by rw [hd])
  have h2 : beNat (sig.take len) < 256 ^ len := lt_of_lt_of_eq (beNat_lt _) (by rw [ht])
  unfold unpack_cp_signature
  simp only [hh]
  rw [C42_packed_layout _ _ _ h1 h2, List.take_of_length_le (l := sig.drop len) (by omega), beBytes_beNat _ _ ht,
    beBytes_beNat _ _ hd, List.take_append_drop]

section Evp
variable {G : Type} [AddCommGroup G]

/-- **C38, C42**: the signature bytes returned by the sign operation are accepted by the verify operation, for every key
type whose signature size can hold the order. -/
theorem C42_signed_bytes_verify (E : EcGroup G) (hE : E.Sound) (nid : PkeyNid) (hfit : E.order ≤ 256 ^ (nid.sigLen / 2)) (d : Nat)
    (hd : ¬ E.order ∣ d) (hd2 : d < 256 ^ BN_num_bytes E.field) (tbs : Bytes) (draws : List Nat) (hk : ∀ k ∈ draws, k < E.order)
    (sig : Bytes) (Q : G) (hQ : gost_ec_compute_public E d = some Q)
    (hs : pkey_gost_ec_cp_sign E nid tbs d draws = some sig) :
    sig.length = nid.sigLen ∧ pkey_gost_ec_cp_verify E sig tbs Q = 1 := by
  unfold pkey_gost_ec_cp_sign at hs
  cases h : gost_ec_sign E tbs d draws with
  | none => simp [h] at hs
  | some rs =>
    obtain ⟨r, s⟩ := rs
    simp only [h, Option.some.injEq] at hs
    obtain ⟨_, hr, _, hs'⟩ := C39_signature_in_range E hE d tbs draws hk r s h
    have hr2 := lt_of_lt_of_le hr hfit
    have hs2 := lt_of_lt_of_le hs' hfit
    constructor
    · rw [← hs, C42_packed_layout r s _ hr2 hs2]
      cases nid <;> simp [PkeyNid.sigLen]
    · unfold pkey_gost_ec_cp_verify
      rw [← hs, C42_unpack_pack r s _ hr2 hs2]
      exact C38_verify_accepts_signed E hE d hd hd2 tbs draws hk r s Q hQ h

/-- **C42 (finding)**: the verify operation does not look at the length of the signature: one more byte at the end of a
signature of even length changes nothing, whatever the byte. -/
theorem C42_trailing_byte_ignored {G : Type} (E : EcGroup G) (sig tbs : Bytes) (b : Byte) (Q : G) (h : sig.length % 2 = 0) :
    pkey_gost_ec_cp_verify E (sig ++ [b]) tbs Q = pkey_gost_ec_cp_verify E sig tbs Q := by
  have e : unpack_cp_signature (sig ++ [b]) = unpack_cp_signature sig := by
    unfold unpack_cp_signature
    have h1 : (sig ++ [b]).length / 2 = sig.length / 2 := by simp; omega
    simp only [h1]
    rw [List.drop_append_of_le_length (by omega), List.take_append_of_le_length (by simp; omega),
      List.take_append_of_le_length (by omega)]
  unfold pkey_gost_ec_cp_verify
  rw [e]

/-- **C42 (finding)**: nor are leading zeros refused: widening both halves of a signature by zero bytes gives another
byte string that is accepted equally. -/
theorem C42_padded_signature_same {G : Type} (E : EcGroup G) (s r tbs : Bytes) (k : Nat) (Q : G) (h : s.length = r.length) :
    pkey_gost_ec_cp_verify E ((zeros k ++ s) ++ (zeros k ++ r)) tbs Q = pkey_gost_ec_cp_verify E (s ++ r) tbs Q := by
  have z : ∀ x : Bytes, beNat (zeros k ++ x) = beNat x := by
    intro x
    have : beNat (zeros k) = 0 := by
      rw [beNat_eq_zero_iff]; simp [zeros]
    rw [beNat_append, this]; simp
  have e : ∀ a b : Bytes, a.length = b.length → unpack_cp_signature (a ++ b) = (beNat b, beNat a) := by
    intro a b hab
    unfold unpack_cp_signature
    have h1 : (a ++ b).length / 2 = a.length := by simp; omega
    simp only [h1]
    rw [List.drop_left' rfl, List.take_of_length_le (l := b) (by omega), List.take_left' rfl]
  unfold pkey_gost_ec_cp_verify
  rw [e _ _ (by simp [zeros, h]), e _ _ h, z, z]

end Evp

/-! ## Private keys -/

theorem swapLoop_get (n : Nat) (b0 : Bytes) (hb : b0.length = n) :
    ∀ (fuel i : Nat) (buf : Bytes), fuel + i = n / 2 → buf.length = n →
      (∀ j < n, buf.getD j 0 = if j < i ∨ n - i ≤ j then b0.getD (n - 1 - j) 0 else b0.getD j 0) →
      swapLoop n fuel i buf = b0.reverse := by
  intro fuel
  induction fuel with
  | zero =>
    intro i buf hf hl hinv
    apply List.ext_getElem
    · simp [swapLoop, hl, hb]
    · intro j h1 h2
      have hj : j < n := by simpa [swapLoop, hl] using h1
      have := hinv j hj
      simp only [swapLoop]
      have e1 : buf.getD j 0 = buf[j]'(by omega) := by simp [List.getD_eq_getElem?_getD, hl, hj]
      rw [← e1, this, List.getElem_reverse]
      have e2 : ∀ m (hm : m < b0.length), b0.getD m 0 = b0[m] := by
        intro m hm; simp [List.getD_eq_getElem?_getD, hm]
      split
      · rw [e2 _ (by omega)]; congr 1; omega
      · rw [e2 _ (by omega)]; congr 1; omega
  | succ fuel ih =>
    intro i buf hf hl hinv
    rw [swapLoop]
    apply ih (i + 1) _ (by omega) (by simp [hl])
    intro j hj
    have g : ∀ (l : Bytes) (a m : Nat) (x : Byte), m < l.length → (l.set a x).getD m 0 = if a = m then x else l.getD m 0 := by
      intro l a m x hm
      simp only [List.getD_eq_getElem?_getD, List.getElem?_set]
      split
      · rename_i h; subst h; simp [hm]
      · rfl
    rw [g _ _ _ _ (by simp; omega), g _ _ _ _ (by omega)]
    simp only [at_]
    have hi1 := hinv i (by omega)
    have hi2 := hinv (n - 1 - i) (by omega)
    rw [if_neg (by omega)] at hi1 hi2
    by_cases c1 : n - 1 - i = j
    · rw [if_pos c1, if_pos (by omega), hi1]; congr 1; omega
    · rw [if_neg c1]
      by_cases c2 : i = j
      · rw [if_pos c2, if_pos (by omega), hi2]; congr 1; omega
      · rw [if_neg c2, hinv j hj]
        by_cases c3 : j < i ∨ n - i ≤ j
        · rw [if_pos c3, if_pos (by omega)]
        · rw [if_neg c3, if_neg (by omega)]

theorem swapLoop_reverse (n : Nat) (b : Bytes) (hb : b.length = n) : swapLoop n (n / 2) 0 b = b.reverse := by
  apply swapLoop_get n b hb _ _ _ (by omega) hb
  intro j hj
  rw [if_neg (by omega)]

/-- **C42**: encoding a private key: its little-endian bytes in the size of the key type; refused exactly when it does
not fit. -/
theorem C42_priv_encode (i2d : Bytes → Bytes) (nid : PkeyNid) (d : Nat) (buf0 : Bytes) :
    priv_encode_gost i2d false nid d buf0 = if d < 256 ^ nid.keyLen then some (leBytes nid.keyLen d) else none := by
  by_cases h : d < 256 ^ nid.keyLen
  · rw [if_pos h]
    unfold priv_encode_gost
    simp only [Bool.false_eq_true, if_false]
    rw [(C42_store_bignum d _ buf0).2 h]
    simp only [one_ne_zero, if_false]
    rw [swapLoop_reverse _ _ (by simp), leBytes_eq]
  · rw [if_neg h]
    unfold priv_encode_gost
    simp only [Bool.false_eq_true, if_false]
    rw [(C42_store_bignum d _ buf0).1 (by omega)]
    rfl

theorem unmask_zero (q : Nat) (buf : Bytes) (len : Nat) : unmask_priv_key q buf len 0 = leNat (buf.take len) := rfl

/-- **C42**: a private key that was encoded decodes to itself (for every DER decoder: the plain format does not use it). -/
theorem C42_priv_decode_encode (D : DerIn) (q : Nat) (i2d : Bytes → Bytes) (nid : PkeyNid) (d : Nat) (buf0 out : Bytes)
    (h : priv_encode_gost i2d false nid d buf0 = some out) : priv_decode_gost D q nid out = some d := by
  rw [C42_priv_encode] at h
  split at h
  case isFalse => simp at h
  rename_i hd
  simp only [Option.some.injEq] at h
  unfold priv_decode_gost
  have hl : out.length = nid.keyLen := by rw [← h]; simp
  have hk : 0 < nid.keyLen := by cases nid <;> decide
  simp only
  rw [if_pos (by rw [hl]; simp), hl, Nat.div_self hk, unmask_zero, List.take_of_length_le (by omega), ← h, leNat_leBytes, Nat.mod_eq_of_lt hd]

/-- **C42**: the same for the wrapped (`LEGACY_PK_WRAP`) format, for any DER coder that is inverted by its decoder, starts an
octet string with the tag 4 and adds a two-byte header. -/
theorem C42_priv_decode_encode_wrapped (D : DerIn) (q : Nat) (i2d : Bytes → Bytes)
    (hi : ∀ x : Bytes, x.length = 32 ∨ x.length = 64 → D.d2i_octet (i2d x) = some x ∧ at_ (i2d x) 0 = 4 ∧ (i2d x).length = x.length + 2)
    (nid : PkeyNid) (d : Nat) (buf0 out : Bytes)
    (h : priv_encode_gost i2d true nid d buf0 = some out) : priv_decode_gost D q nid out = some d := by
  have h2 : ∃ hd : d < 256 ^ nid.keyLen, out = i2d (leBytes nid.keyLen d) := by
    unfold priv_encode_gost at h
    simp only [if_true] at h
    by_cases hd : d < 256 ^ nid.keyLen
    · rw [(C42_store_bignum d _ buf0).2 hd] at h
      simp only [one_ne_zero, if_false, if_true] at h
      rw [swapLoop_reverse _ _ (by simp), ← leBytes_eq] at h
      exact ⟨hd, (Option.some.inj h).symm⟩
    · rw [(C42_store_bignum d _ buf0).1 (by omega)] at h
      simp at h
  obtain ⟨hd, rfl⟩ := h2
  have hlen : (leBytes nid.keyLen d).length = 32 ∨ (leBytes nid.keyLen d).length = 64 := by
    cases nid <;> simp [PkeyNid.keyLen]
  obtain ⟨a, b, c⟩ := hi _ hlen
  unfold priv_decode_gost
  simp only
  rw [if_neg (by rw [c]; cases nid <;> simp [PkeyNid.keyLen]), if_pos b, a]
  simp only
  rw [if_neg (by tauto), leNat_leBytes, Nat.mod_eq_of_lt hd]

/-! ## Masked keys -/

theorem unmask_foldl (q : Nat) (f : Nat → Nat) (l : List Nat) (a : Nat) :
    ((l.foldl (fun p i => p * f i % q) a : Nat) : ZMod q) = a * ((l.map f).prod : Nat) := by
  induction l generalizing a with
  | nil => simp
  | cons i l ih =>
    simp only [List.foldl_cons, List.map_cons, List.prod_cons, ih]
    push_cast [ZMod.natCast_mod]
    ring

theorem unmask_foldl_lt (q : Nat) (hq : 0 < q) (f : Nat → Nat) (l : List Nat) (hl : l ≠ []) (a : Nat) :
    l.foldl (fun p i => p * f i % q) a < q := by
  induction l using List.reverseRecOn with
  | nil => exact absurd rfl hl
  | append_singleton l i ih => simp only [List.foldl_append, List.foldl_cons, List.foldl_nil]; exact Nat.mod_lt _ hq

/-- Cutting a concatenation of equal-sized pieces. -/
theorem flatten_piece (len : Nat) (parts : List Bytes) (hp : ∀ p ∈ parts, p.length = len) (i : Nat) (hi : i < parts.length) :
    (parts.flatten.drop (i * len)).take len = parts[i] := by
  induction parts generalizing i with
  | nil => simp at hi
  | cons p ps ih =>
    have hpl := hp p (by simp)
    cases i with
    | zero => simp [← hpl]
    | succ i =>
      rw [List.flatten_cons, Nat.add_mul, Nat.one_mul, Nat.add_comm, ← List.drop_drop, List.drop_left' hpl]
      rw [ih (fun p hq => hp p (by simp [hq])) i (by simpa using hi)]
      rfl

/-- **C43**: decoding a private key blob made of a masked key and masks (all little-endian, in the size of the key) yields
the product modulo `q`. -/
theorem C43_unmask_product (D : DerIn) (q : Nat) (nid : PkeyNid) (masked : Bytes) (masks : List Bytes)
    (h0 : masked.length = nid.keyLen) (hm : ∀ m ∈ masks, m.length = nid.keyLen) (hne : masks ≠ []) (hq : 0 < q) :
    ∃ d, priv_decode_gost D q nid ((masked :: masks).flatten) = some d ∧ d < q ∧
      (d : ZMod q) = leNat masked * ((masks.map leNat).prod : Nat) := by
  have hk : 0 < nid.keyLen := by cases nid <;> decide
  have hall : ∀ p ∈ masked :: masks, p.length = nid.keyLen := by
    intro p hp; rcases List.mem_cons.1 hp with rfl | hp
    · exact h0
    · exact hm p hp
  have hlen : ((masked :: masks).flatten).length = (masks.length + 1) * nid.keyLen := by
    rw [List.length_flatten]
    have : (masked :: masks).map List.length = List.replicate (masks.length + 1) nid.keyLen := by
      apply List.ext_getElem
      · simp
      · intro i h1 h2
        simp only [List.getElem_map, List.getElem_replicate]
        exact hall _ (List.getElem_mem _)
    rw [this, List.sum_replicate]
    simp
  refine ⟨_, by unfold priv_decode_gost; simp only; rw [if_pos (by rw [hlen]; simp)], ?_, ?_⟩
  all_goals rw [hlen, Nat.mul_div_cancel _ hk, Nat.add_sub_cancel]
  all_goals unfold unmask_priv_key
  all_goals simp only
  · apply unmask_foldl_lt q hq
    intro h
    have := congrArg List.length h
    simp at this
    exact hne this
  · rw [unmask_foldl q (fun i => leNat ((((masked :: masks).flatten).drop ((i + 1) * nid.keyLen)).take nid.keyLen))]
    have hp0 : ((masked :: masks).flatten).take nid.keyLen = masked := by
      have := flatten_piece nid.keyLen (masked :: masks) hall 0 (by simp)
      simpa using this
    rw [hp0]
    congr 2
    rw [List.map_reverse, List.prod_reverse]
    congr 1
    apply List.ext_getElem
    · simp
    · intro i h1 h2
      simp only [List.getElem_map, List.getElem_range]
      rw [flatten_piece nid.keyLen (masked :: masks) hall (i + 1) (by simpa using h2)]
      rfl

/-- **C43**: with the masked value `d * (M1 ... Mn)^-1 mod q` and the masks `M1 .. Mn`, decoding returns `d` (for `d < q`, and
also for a blob inside the SEQUENCE format, whose decoder delivers the same octets). -/
theorem C43_masked_key_decodes (D : DerIn) (q : Nat) (nid : PkeyNid) (d : Nat) (hd : d < q) (masked : Bytes) (masks : List Bytes)
    (h0 : masked.length = nid.keyLen) (hm : ∀ m ∈ masks, m.length = nid.keyLen) (hne : masks ≠ [])
    (hmask : (leNat masked : ZMod q) * ((masks.map leNat).prod : Nat) = d) :
    priv_decode_gost D q nid ((masked :: masks).flatten) = some d := by
  obtain ⟨d', h1, h2, h3⟩ := C43_unmask_product D q nid masked masks h0 hm hne (by omega)
  rw [hmask] at h3
  rw [h1]
  congr 1
  have := (ZMod.natCast_eq_natCast_iff d' d q).1 h3
  unfold Nat.ModEq at this
  rwa [Nat.mod_eq_of_lt h2, Nat.mod_eq_of_lt hd] at this

/-- The hypothesis of C43 is met: masked value 3, masks 5 and 9 with `q = 101`: `3 * 5 * 9 = 135 = 34 (mod 101)`. -/
example (D : DerIn) : priv_decode_gost D 101 .gost2012_256 ((leBytes 32 3 :: [leBytes 32 5, leBytes 32 9]).flatten) = some 34 := by
  apply C43_masked_key_decodes D 101 .gost2012_256 34 (by decide) _ _ (by simp [PkeyNid.keyLen])
  · intro m hm; simp only [List.mem_cons, List.not_mem_nil, or_false] at hm; rcases hm with rfl | rfl <;> simp [PkeyNid.keyLen]
  · simp
  · decide +kernel

/-- **C43**: the same masked key wrapped in DER (a SEQUENCE holding the octets) is read as the same number as the bare octets, and a
wrapped one whose contents are not a whole number of key-sized pieces is refused, whatever the other bytes are. -/
theorem C43_wrapped_masked_key (D : DerIn) (q : Nat) (nid : PkeyNid) (blob content : Bytes) (h30 : at_ blob 0 = 0x30)
    (hl : ¬ nid.keyLen ∣ blob.length) (hd : D.d2i_masked blob = some content) :
    (nid.keyLen ∣ content.length → priv_decode_gost D q nid blob = priv_decode_gost D q nid content) ∧
    (¬ nid.keyLen ∣ content.length → priv_decode_gost D q nid blob = none) := by
  have e : priv_decode_gost D q nid blob =
      if content.length % nid.keyLen ≠ 0 then none else some (unmask_priv_key q content nid.keyLen (content.length / nid.keyLen - 1)) := by
    unfold priv_decode_gost
    simp only
    rw [if_neg (fun h => hl (Nat.dvd_of_mod_eq_zero h)), if_neg (show ¬ at_ blob 0 = 0x04 by rw [h30]; decide),
      if_neg (show ¬ at_ blob 0 = 0x02 by rw [h30]; decide), if_pos h30, hd]
  constructor
  · intro h
    have hz := Nat.mod_eq_zero_of_dvd h
    rw [e, if_neg (by rw [hz]; decide)]
    unfold priv_decode_gost
    simp only
    rw [if_pos hz]
  · intro h
    rw [e, if_pos (fun hz => h (Nat.dvd_of_mod_eq_zero hz))]

/-- **C43**: octets that are neither a whole number of key-sized pieces nor a DER OCTET STRING, INTEGER or SEQUENCE are refused, and so
is an OCTET STRING whose contents are neither 32 nor 64 bytes. -/
theorem C43_other_blobs_refused (D : DerIn) (q : Nat) (nid : PkeyNid) (blob : Bytes) (hl : ¬ nid.keyLen ∣ blob.length) :
    (at_ blob 0 ≠ 0x04 → at_ blob 0 ≠ 0x02 → at_ blob 0 ≠ 0x30 → priv_decode_gost D q nid blob = none) ∧
    (∀ s, at_ blob 0 = 0x04 → D.d2i_octet blob = some s → s.length ≠ 32 → s.length ≠ 64 → priv_decode_gost D q nid blob = none) := by
  have hz : ¬ blob.length % nid.keyLen = 0 := fun h => hl (Nat.dvd_of_mod_eq_zero h)
  constructor
  · intro h1 h2 h3
    unfold priv_decode_gost
    simp only
    rw [if_neg hz, if_neg h1, if_neg h2, if_neg h3]
  · intro s h1 hs h32 h64
    unfold priv_decode_gost
    simp only
    rw [if_neg hz, if_pos h1, hs]
    simp only
    rw [if_pos ⟨h32, h64⟩]

/-- The hypotheses are met: a decoder that strips two header bytes, and a wrapped blob with 33 bytes of contents. -/
example (q : Nat) (oct : Bytes → Option Bytes) (int : Bytes → Option Nat) :
    priv_decode_gost ⟨oct, int, fun b => some (b.drop 2)⟩ q .gost2012_256 (0x30 :: 33 :: zeros 33) = none :=
  (C43_wrapped_masked_key ⟨oct, int, fun b => some (b.drop 2)⟩ q .gost2012_256 (0x30 :: 33 :: zeros 33) (zeros 33) rfl
    (by simp only [PkeyNid.keyLen]; decide) rfl).2 (by simp only [PkeyNid.keyLen]; decide)

/-! ## Public keys -/

/-- **C42**: an encoded public key is `x || y`, both little-endian in the size of the order, and decoding hands exactly
these coordinates to the curve; the size of the order must hold the field (as for all parameter sets). -/
theorem C42_pub_decode_encode {G : Type} (E : EcGroup G) (ofCoords : Nat → Nat → Option G) (Q : G) (x y : Nat)
    (hc : E.coords Q = some (x, y)) (hx : x < 256 ^ BN_num_bytes E.order) (hy : y < 256 ^ BN_num_bytes E.order) :
    pub_encode_gost_ec E Q = some (leBytes (BN_num_bytes E.order) x ++ leBytes (BN_num_bytes E.order) y) ∧
      ∀ out, pub_encode_gost_ec E Q = some out → pub_decode_gost_ec ofCoords out = ofCoords x y := by
  have henc : pub_encode_gost_ec E Q = some (leBytes (BN_num_bytes E.order) x ++ leBytes (BN_num_bytes E.order) y) := by
    unfold pub_encode_gost_ec
    rw [hc]
    simp only
    have h2 : 2 * BN_num_bytes E.order / 2 = BN_num_bytes E.order := by omega
    rw [h2, (C42_store_bignum x _ _).2 hx, (C42_store_bignum y _ _).2 hy]
    simp [leBytes_eq]
  refine ⟨henc, ?_⟩
  intro out ho
  rw [henc] at ho
  simp only [Option.some.injEq] at ho
  unfold pub_decode_gost_ec
  have hl : out.length / 2 = BN_num_bytes E.order := by rw [← ho]; simp; omega
  simp only [hl]
  have hrev : out.reverse = beBytes (BN_num_bytes E.order) y ++ beBytes (BN_num_bytes E.order) x := by
    rw [← ho]; simp [leBytes_eq]
  rw [hrev, List.take_left' (by simp), List.drop_left' (by simp), List.take_of_length_le (by simp), beNat_beBytes, beNat_beBytes,
    Nat.mod_eq_of_lt hx, Nat.mod_eq_of_lt hy]

end Gost
