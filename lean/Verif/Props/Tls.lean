import Verif.Lemmas.Tls
import Verif.Props.KeyExp

/-!
# C35, C36, C37: KDF_TREE, TLSTREE, TLS sequence numbers
-/

namespace Gost
open Spec

/-! ## C35 -/

/-- **C35.** For every label, seed, counter representation of 1 to 4 bytes and number of blocks (the length in bits being
below `2^32`), the output is KDF_TREE: block number `i` is the HMAC of `[i]_R || label || 0 || seed || [L]`. -/
theorem C35_is_kdf_tree (X : Crypto) (key label seed : Bytes) (blocks R : Nat) (h1 : 1 ≤ blocks) (hR : R ≤ 4)
    (hb : blocks * 256 < 2^32) :
    gost_kdftree2012_256 X (32 * blocks) key label seed R = some (kdfTree X.hmac key R label seed blocks) :=
  kdftree_eq X key label seed blocks R h1 hR hb

/-- **C35.** The length 0 and lengths that are not whole blocks are refused. -/
theorem C35_refused (X : Crypto) (key label seed : Bytes) (len R : Nat) :
    gost_kdftree2012_256 X len key label seed R = none ↔ len = 0 ∨ len % 32 ≠ 0 := by
  simp only [gost_kdftree2012_256]
  split <;> simp [*]

/-- Bytes `32 i .. 32 i + 31` of the output. -/
theorem kdfTree_block (X : Crypto) (key label seed : Bytes) (blocks R i : Nat) (hi : i < blocks) :
    ((kdfTree X.hmac key R label seed blocks).drop (32 * i)).take 32 =
      X.hmac key (kdfTreeInput R label seed (blocks * 256) (i + 1)) := by
  have key : ∀ (f : Nat → Bytes), (∀ i, (f i).length = 32) → ∀ (l : List Nat) (i : Nat) (h : i < l.length),
      ((l.flatMap f).drop (32 * i)).take 32 = f l[i] := by
    intro f hf l
    induction l with
    | nil => intro i h; simp at h
    | cons a l ih =>
      intro i h
      cases i with
      | zero => simp [List.take_left' (hf a)]
      | succ i =>
        rw [List.flatMap_cons, show 32 * (i + 1) = 32 + 32 * i by omega, ← List.drop_drop, List.drop_left' (hf a), ih i (by simpa using h)]
        rfl
  rw [kdfTree, key _ (fun i => X.hmac_length _ _) _ i (by simpa using hi)]
  simp

/-- **C35.** Every block of the output is the HMAC of its own counter. -/
theorem C35_block (X : Crypto) (key label seed out : Bytes) (blocks R i : Nat) (hi : i < blocks) (hR : R ≤ 4)
    (hb : blocks * 256 < 2^32) (h : gost_kdftree2012_256 X (32 * blocks) key label seed R = some out) :
    (out.drop (32 * i)).take 32 = X.hmac key (beBytes R (i + 1) ++ label ++ [0] ++ seed ++ beMin (blocks * 256)) ∧
    out.length = 32 * blocks := by
  rw [kdftree_eq X key label seed blocks R (by omega) hR hb] at h
  cases h
  refine ⟨kdfTree_block X key label seed blocks R i hi, ?_⟩
  rw [kdfTree, flatMap_len _ 32 (fun i => X.hmac_length _ _)]
  simp

/-- **C35.** No two blocks hash the same input, as long as the number of blocks fits the counter. -/
theorem C35_inputs_distinct (label seed : Bytes) (L R i j : Nat) (hi : i < 256^R) (hj : j < 256^R)
    (h : kdfTreeInput R label seed L i = kdfTreeInput R label seed L j) : i = j := by
  simp only [kdfTreeInput, List.append_assoc] at h
  have h1 := (List.append_inj h (by simp)).1
  have := congrArg beNat h1
  rwa [beNat_beBytes, beNat_beBytes, Nat.mod_eq_of_lt hi, Nat.mod_eq_of_lt hj] at this

/-- **C35 (finding).** Nothing checks that the number of blocks fits the counter: with the one-byte counter the 257th
block repeats the first. -/
theorem C35_counter_wraps (X : Crypto) (key label seed : Bytes) :
    ∃ out, gost_kdftree2012_256 X (32 * 257) key label seed 1 = some out ∧
      (out.drop (32 * 256)).take 32 = (out.drop (32 * 0)).take 32 := by
  refine ⟨_, kdftree_eq X key label seed 257 1 (by decide) (by decide) (by decide), ?_⟩
  rw [kdfTree_block X key label seed 257 1 256 (by decide), kdfTree_block X key label seed 257 1 0 (by decide)]
  rfl

/-- Witness: two blocks with a two-byte counter. -/
example : ∃ out, gost_kdftree2012_256 realCrypto 64 sampleKey [1, 2] [3] 2 = some out ∧ out.length = 64 := by
  refine ⟨_, C35_is_kdf_tree realCrypto sampleKey [1, 2] [3] 2 2 (by decide) (by decide) (by decide), ?_⟩
  exact (C35_block realCrypto sampleKey [1, 2] [3] _ 2 2 0 (by decide) (by decide) (by decide)
    (C35_is_kdf_tree realCrypto sampleKey [1, 2] [3] 2 2 (by decide) (by decide) (by decide))).2

/-! ## C36 -/

/-- **C36.** The key for a sequence number (8 bytes, big-endian) is TLSTREE. -/
theorem C36_is_tlstree (X : Crypto) (n : OmacCipher) (key seq : Bytes) (h : seq.length = 8) :
    gost_tlstree X n key seq = some (tlstree X.hmac n key (beNat seq)) := tlstree_eq X n key seq h

/-- The number of records that share a key. -/
def tlsWindow : OmacCipher → Nat
  | .magma => 4096
  | .kuznyechik => 64

theorem tlsSeed_eq (i j s : Nat) (hi : i < 2^64) (hj : j < 2^64) : tlsSeed i s = tlsSeed j s ↔ i / 2^s = j / 2^s := by
  have hp : 0 < 2^s := Nat.two_pow_pos s
  constructor
  · intro h
    have := congrArg beNat h
    rw [tlsSeed, tlsSeed, beNat_beBytes, beNat_beBytes, show (256:Nat)^8 = 2^64 by decide,
      Nat.mod_eq_of_lt (Nat.lt_of_le_of_lt (Nat.div_mul_le_self _ _) hi),
      Nat.mod_eq_of_lt (Nat.lt_of_le_of_lt (Nat.div_mul_le_self _ _) hj)] at this
    exact Nat.eq_of_mul_eq_mul_right hp this
  · intro h
    rw [tlsSeed, tlsSeed, h]

/-- **C36.** The three seeds of two sequence numbers agree if and only if the numbers lie in the same window of 4096
(Magma) or 64 (Kuznyechik) records. -/
theorem C36_seeds_iff_window (n : OmacCipher) (i j : Nat) (hi : i < 2^64) (hj : j < 2^64) :
    (tlsSeed i (tlsShifts n).1 = tlsSeed j (tlsShifts n).1 ∧ tlsSeed i (tlsShifts n).2.1 = tlsSeed j (tlsShifts n).2.1 ∧
      tlsSeed i (tlsShifts n).2.2 = tlsSeed j (tlsShifts n).2.2) ↔ i / tlsWindow n = j / tlsWindow n := by
  rw [tlsSeed_eq _ _ _ hi hj, tlsSeed_eq _ _ _ hi hj, tlsSeed_eq _ _ _ hi hj]
  cases n <;> simp only [tlsShifts, tlsWindow] <;> omega

/-- **C36.** Records in one window share the key. -/
theorem C36_same_window_same_key (X : Crypto) (n : OmacCipher) (key s t : Bytes) (hs : s.length = 8) (ht : t.length = 8)
    (h : beNat s / tlsWindow n = beNat t / tlsWindow n) : gost_tlstree X n key s = gost_tlstree X n key t := by
  have bs : beNat s < 2^64 := by have := beNat_lt s; rw [hs] at this; simpa using this
  have bt : beNat t < 2^64 := by have := beNat_lt t; rw [ht] at this; simpa using this
  obtain ⟨h1, h2, h3⟩ := (C36_seeds_iff_window n (beNat s) (beNat t) bs bt).mpr h
  rw [tlstree_eq X n key s hs, tlstree_eq X n key t ht]
  simp only [tlstree, h1, h2, h3]

/-- The message of the last HMAC of TLSTREE: `0x01 || "level3" || 0x00 || seed || 0x01 || 0x00`. -/
def tlsLastMessage (seed : Bytes) : Bytes := [1] ++ [0x6c, 0x65, 0x76, 0x65, 0x6c, 0x33] ++ [0] ++ seed ++ [1, 0]

/-- The key of the last HMAC of TLSTREE. -/
def tlsLastKey (hmac : Bytes → Bytes → Bytes) (n : OmacCipher) (key : Bytes) (seqno : Nat) : Bytes :=
  kdf256 hmac (kdf256 hmac key [0x6c, 0x65, 0x76, 0x65, 0x6c, 0x31] (tlsSeed seqno (tlsShifts n).1))
    [0x6c, 0x65, 0x76, 0x65, 0x6c, 0x32] (tlsSeed seqno (tlsShifts n).2.1)

theorem tlstree_last (hmac : Bytes → Bytes → Bytes) (n : OmacCipher) (key : Bytes) (i : Nat) :
    tlstree hmac n key i = hmac (tlsLastKey hmac n key i) (tlsLastMessage (tlsSeed i (tlsShifts n).2.2)) := rfl

theorem tlsLastMessage_inj {a b : Bytes} (h : tlsLastMessage a = tlsLastMessage b) : a = b := by
  unfold tlsLastMessage at h
  exact List.append_cancel_left (List.append_cancel_right h)

theorem tlsLast_differs (n : OmacCipher) (i j : Nat) (hi : i < 2^64) (hj : j < 2^64) (h : i / tlsWindow n ≠ j / tlsWindow n) :
    tlsLastMessage (tlsSeed i (tlsShifts n).2.2) ≠ tlsLastMessage (tlsSeed j (tlsShifts n).2.2) := by
  intro hc
  have := (tlsSeed_eq _ _ _ hi hj).1 (tlsLastMessage_inj hc)
  cases n <;> exact h this

/-- **C36.** Records in different windows get different keys, unless HMAC collides: the last HMAC computations for the two records,
whose messages differ, give the same value. -/
theorem C36_different_window_collision (X : Crypto) (n : OmacCipher) (key s t : Bytes) (hs : s.length = 8)
    (ht : t.length = 8) (h : beNat s / tlsWindow n ≠ beNat t / tlsWindow n) :
    tlsLastMessage (tlsSeed (beNat s) (tlsShifts n).2.2) ≠ tlsLastMessage (tlsSeed (beNat t) (tlsShifts n).2.2) ∧
    (gost_tlstree X n key s = gost_tlstree X n key t ↔
      X.hmac (tlsLastKey X.hmac n key (beNat s)) (tlsLastMessage (tlsSeed (beNat s) (tlsShifts n).2.2)) =
        X.hmac (tlsLastKey X.hmac n key (beNat t)) (tlsLastMessage (tlsSeed (beNat t) (tlsShifts n).2.2))) := by
  have bs : beNat s < 2^64 := by have := beNat_lt s; rw [hs] at this; simpa using this
  have bt : beNat t < 2^64 := by have := beNat_lt t; rw [ht] at this; simpa using this
  refine ⟨tlsLast_differs n _ _ bs bt h, ?_⟩
  rw [tlstree_eq X n key s hs, tlstree_eq X n key t ht, ← tlstree_last X.hmac, ← tlstree_last X.hmac]
  exact ⟨fun e => Option.some.inj e, fun e => congrArg some e⟩

/-- Witness: records 63 and 64 lie in different Kuznyechik windows. -/
example : beNat [0, 0, 0, 0, 0, 0, 0, 63] / tlsWindow .kuznyechik ≠ beNat [0, 0, 0, 0, 0, 0, 0, 64] / tlsWindow .kuznyechik ∧
    beNat [0, 0, 0, 0, 0, 0, 0, 63] / tlsWindow .magma = beNat [0, 0, 0, 0, 0, 0, 0, 64] / tlsWindow .magma := by decide

/-! ## C37 -/

/-- The sequence number of the record, given the number passed to the control and its argument. -/
def recordNo (seq : Bytes) (arg : Int) : Nat := if arg = 1 then (beNat seq + 2^64 - 1) % 2^64 else beNat seq

/-- **C37.** `decrement_sequence` subtracts one modulo `2^64` for the argument 1, does nothing for 0, and refuses every other
argument, leaving the number as it was. -/
theorem C37_decrement (seq : Bytes) (h : seq.length = 8) (arg : Int) :
    decrement_sequence seq arg =
      if arg = 1 then (beBytes 8 ((beNat seq + 2^64 - 1) % 2^64), 1) else if arg = 0 then (seq, 1) else (seq, 0) := by
  have e : decrLoop 8 seq = beBytes 8 ((beNat seq + 2^64 - 1) % 2^64) := by
    have := decrLoop_eq 8 seq [] h
    rw [List.append_nil, List.append_nil] at this
    rw [this, ← beBytes_mod]
    rfl
  unfold decrement_sequence
  by_cases h1 : arg = 1
  · rw [if_neg (by omega), if_pos (by omega), if_pos h1, e]
  · by_cases h0 : arg = 0
    · rw [if_neg (by omega), if_neg (by omega), if_neg h1, if_pos h0]
    · rw [if_pos (by omega), if_neg h1, if_neg h0]

theorem decrement_ok (seq : Bytes) (h : seq.length = 8) (arg : Int) (ha : arg = 0 ∨ arg = 1) :
    decrement_sequence seq arg = (beBytes 8 (recordNo seq arg), 1) ∧ recordNo seq arg < 2^64 := by
  have bs : beNat seq < 2^64 := by have := beNat_lt seq; rw [h] at this; simpa using this
  rw [C37_decrement seq h, recordNo]
  rcases ha with h0 | h1
  · subst h0
    exact ⟨by rw [if_neg (by decide), if_pos rfl, if_neg (by decide), beBytes_beNat _ _ h], by rw [if_neg (by decide)]; exact bs⟩
  · subst h1
    exact ⟨by rw [if_pos rfl, if_pos rfl], by rw [if_pos rfl]; omega⟩

/-- **C37.** The loop over `adjusted_iv` is the addition of IV and sequence number as big-endian numbers, modulo `2^64`
(Kuznyechik). -/
theorem C37_kuz_adjust (iv seq : Bytes) (hi : iv.length = 8) (hs : seq.length = 8) :
    adjLoop seq 0 8 0 (iv ++ zeros 8) = beBytes 8 ((beNat iv + beNat seq) % 2^64) ++ zeros 8 := by
  rw [adjLoop_eq seq 0 8 0 iv (zeros 8) seq hi hs (fun j _ => rfl) (by decide), ← beBytes_mod]
  rfl

/-- **C37.** For Magma the IV has four bytes and the last four bytes of the number are added, modulo `2^32`. -/
theorem C37_magma_adjust (iv seq : Bytes) (hi : iv.length = 4) (hs : seq.length = 8) :
    adjLoop seq 4 4 0 (iv ++ zeros 4) = beBytes 4 ((beNat iv + beNat seq) % 2^32) ++ zeros 4 := by
  have hq : (seq.drop 4).length = 4 := by rw [List.length_drop, hs]
  rw [adjLoop_eq seq 4 4 0 iv (zeros 4) (seq.drop 4) hi hq (fun j _ => by
    simp [at_, List.getD_eq_getElem?_getD, List.getElem?_drop, Nat.add_comm]) (by decide), ← beBytes_mod]
  congr 2
  have h1 := beNat_append (seq.take 4) (seq.drop 4)
  rw [List.take_append_drop, hq] at h1
  rw [h1]
  show (beNat iv + beNat (seq.drop 4) + 0) % 256^4 = _
  omega

/-! ### Records -/

/-- What an application does with a CTR context between two initialisations: encrypt or decrypt data, or switch to a record
with `EVP_CTRL_TLSTREE` (argument and sequence number). -/
inductive TlsEvent where
  | update (data : Bytes)
  | record (arg : Int) (seq : Bytes)

/-- The context after a history, Magma. -/
def magmaTls (X : Crypto) (e : CipherCtx) : List TlsEvent → CipherCtx
  | [] => e
  | .update d :: h => magmaTls X (magma_cipher_do_ctr e d).1 h
  | .record arg seq :: h => magmaTls X (magma_cipher_ctl_tlstree X e true arg seq).1 h

/-- The context after a history, Kuznyechik. -/
def kuzTls (X : Crypto) (c : KCtx) : List TlsEvent → KCtx
  | [] => c
  | .update d :: h => kuzTls X (gost_grasshopper_cipher_do_ctr c d).1 h
  | .record arg seq :: h => kuzTls X (gost_grasshopper_cipher_ctl_tlstree X c true arg seq).1 h

/-- What a history preserves. -/
structure MTlsInv (key iv : Bytes) (e : CipherCtx) : Prop where
  ctr : MctrInv magmaBox 0 e
  key : e.masterKey = key
  oiv : e.oiv = iv ++ zeros 4

theorem magma_do_keeps (e : CipherCtx) (xs : Bytes) :
    (magma_cipher_do_ctr e xs).1.masterKey = e.masterKey ∧ (magma_cipher_do_ctr e xs).1.oiv = e.oiv := by
  have hg : ∀ e : CipherCtx, (magmaCtrGamma e).masterKey = e.masterKey ∧ (magmaCtrGamma e).oiv = e.oiv := by
    intro e
    simp only [magmaCtrGamma, apply_acpkm_magma]
    split <;> exact ⟨rfl, rfl⟩
  have hw : ∀ (s : CipherCtx) (inp : Bytes), s.masterKey = e.masterKey ∧ s.oiv = e.oiv →
      (whileBlocks 8 magmaCtrBody s inp).1.masterKey = e.masterKey ∧ (whileBlocks 8 magmaCtrBody s inp).1.oiv = e.oiv := by
    intro s inp hs
    refine whileBlocks_inv 8 magmaCtrBody (fun s => s.masterKey = e.masterKey ∧ s.oiv = e.oiv) ?_ s hs inp
    intro s xs hs _
    exact ⟨(hg s).1.trans hs.1, (hg s).2.trans hs.2⟩
  have h1 := hw { e with num := (magmaCtrPart e.buf e.num xs).1 } (magmaCtrPart e.buf e.num xs).2.2 ⟨rfl, rfl⟩
  simp only [magma_cipher_do_ctr]
  split
  · exact ⟨(hg _).1.trans h1.1, (hg _).2.trans h1.2⟩
  · exact h1

theorem magma_do_tlsInv (key iv : Bytes) (e : CipherCtx) (h : MTlsInv key iv e) (xs : Bytes) :
    MTlsInv key iv (magma_cipher_do_ctr e xs).1 :=
  ⟨(do_ctr_refines magmaBox 0 (by decide) e xs h.ctr).1, (magma_do_keeps e xs).1.trans h.key, (magma_do_keeps e xs).2.trans h.oiv⟩

theorem tlstree_length (X : Crypto) (n : OmacCipher) (key : Bytes) (i : Nat) : (tlstree X.hmac n key i).length = 32 :=
  X.hmac_length _ _

/-- The control on a context with a history. -/
theorem magma_ctl_eq (X : Crypto) (key iv : Bytes) (hiv : iv.length = 4) (e : CipherCtx) (h : MTlsInv key iv e) (arg : Int)
    (seq : Bytes) (hs : seq.length = 8) (ha : arg = 0 ∨ arg = 1) :
    magma_cipher_ctl_tlstree X e true arg seq =
      ({ e with num := 0, iv := beBytes 4 ((beNat iv + recordNo seq arg) % 2^32) ++ zeros 4
                cctx := magma_key e.cctx (tlstree X.hmac .magma key (recordNo seq arg)) }, 1) := by
  obtain ⟨d1, d2⟩ := decrement_ok seq hs arg ha
  have hb : beNat (beBytes 8 (recordNo seq arg)) = recordNo seq arg := by
    rw [beNat_beBytes, Nat.mod_eq_of_lt (by simpa using d2)]
  simp only [magma_cipher_ctl_tlstree, List.take_of_length_le (Nat.le_of_eq hs), d1, Bool.not_true]
  rw [if_neg (by decide), if_neg (by decide), tlstree_eq X .magma _ _ (by simp)]
  simp only [h.key, h.oiv, hb]
  rw [List.take_left' hiv, C37_magma_adjust iv _ hiv (by simp), hb]

theorem magma_ctl_refuses (X : Crypto) (e : CipherCtx) (arg : Int) (seq : Bytes) (hs : seq.length = 8)
    (ha : ¬ (arg = 0 ∨ arg = 1)) : magma_cipher_ctl_tlstree X e true arg seq = (e, -1) := by
  simp only [magma_cipher_ctl_tlstree, List.take_of_length_le (Nat.le_of_eq hs), Bool.not_true]
  have hd : decrement_sequence seq arg = (seq, 0) := by
    rw [C37_decrement seq hs, if_neg (by omega), if_neg (by omega)]
  rw [hd, if_neg (by decide), if_pos rfl]

theorem magma_hist_inv (X : Crypto) (key iv : Bytes) (hiv : iv.length = 4) (hist : List TlsEvent)
    (hh : ∀ arg seq, TlsEvent.record arg seq ∈ hist → seq.length = 8) (e : CipherCtx) (h : MTlsInv key iv e) :
    MTlsInv key iv (magmaTls X e hist) := by
  induction hist generalizing e with
  | nil => exact h
  | cons ev hist ih =>
    have hh' : ∀ arg seq, TlsEvent.record arg seq ∈ hist → seq.length = 8 := fun a s hm => hh a s (List.mem_cons_of_mem _ hm)
    cases ev with
    | update d => exact ih hh' _ (magma_do_tlsInv key iv e h d)
    | record arg seq =>
      have hs := hh arg seq List.mem_cons_self
      refine ih hh' _ ?_
      by_cases ha : arg = 0 ∨ arg = 1
      · rw [magma_ctl_eq X key iv hiv e h arg seq hs ha]
        exact ⟨⟨h.ctr.box, h.ctr.km, h.ctr.buf, (by decide : (0:Nat) < 2^32), fun h0 => absurd rfl h0⟩, h.key, h.oiv⟩
      · rw [magma_ctl_refuses X e arg seq hs ha]
        exact h

/-- **C37.** After any history of updates and record switches on a Magma-CTR context, switching to a record succeeds and
the data that follows, in any number of pieces, is encrypted in CTR mode under the TLSTREE key of the record with the IV
`IV + record number`. -/
theorem C37_magma_record (X : Crypto) (rng : Nat → Fin 8 → W32) (enc : Bool) (key iv : Bytes) (hk : key.length = 32)
    (hiv : iv.length = 4) (hist : List TlsEvent) (hh : ∀ arg seq, TlsEvent.record arg seq ∈ hist → seq.length = 8)
    (arg : Int) (seq : Bytes) (hs : seq.length = 8) (ha : arg = 0 ∨ arg = 1) (chunks : List Bytes) :
    let r := magma_cipher_ctl_tlstree X (magmaTls X (magmaSession rng enc 4 false key iv) hist) true arg seq
    r.2 = 1 ∧
    (feed magma_cipher_do_ctr r.1 chunks).2 =
      ctrCrypt engineE .magma (tlstree X.hmac .magma key (recordNo seq arg))
        (beBytes 4 ((beNat iv + recordNo seq arg) % 2^32)) chunks.flatten := by
  have h0 : MTlsInv key iv (magmaSession rng enc 4 false key iv) := by
    refine ⟨(magmaSession_ctr_facts rng enc false key iv hk hiv).1, ?_, ?_⟩
    · show key.take 32 = key
      exact List.take_of_length_le (Nat.le_of_eq hk)
    · show memcpy (zeros 8) iv 4 = iv ++ zeros 4
      match iv, hiv with
      | [b0, b1, b2, b3], _ => rfl
  have h := magma_hist_inv X key iv hiv hist hh _ h0
  generalize magmaTls X (magmaSession rng enc 4 false key iv) hist = e at *
  simp only
  rw [magma_ctl_eq X key iv hiv e h arg seq hs ha]
  refine ⟨rfl, ?_⟩
  have hi : MctrInv magmaBox 0
      { e with num := 0, iv := beBytes 4 ((beNat iv + recordNo seq arg) % 2^32) ++ zeros 4
               cctx := magma_key e.cctx (tlstree X.hmac .magma key (recordNo seq arg)) } :=
    ⟨h.ctr.box, h.ctr.km, h.ctr.buf, (by decide : (0:Nat) < 2^32), fun h0 => absurd rfl h0⟩
  rw [mctr_history magmaBox 0 (by decide) _ hi rfl (by simp [zeros])]
  simp only
  rw [magma_get_key_set _ _ (tlstree_length _ _ _ _)]
  rfl

/-! Kuznyechik -/

structure KTlsInv (key iv : Bytes) (c : KCtx) : Prop where
  ctr : KctrInv c.key c
  key : c.masterKey = key
  oiv : c.oiv = iv ++ zeros 8

theorem kuz_do_keeps (e : KCtx) (xs : Bytes) :
    (gost_grasshopper_cipher_do_ctr e xs).1.masterKey = e.masterKey ∧ (gost_grasshopper_cipher_do_ctr e xs).1.oiv = e.oiv := by
  have hw : ∀ (s : KCtx) (inp : Bytes), s.masterKey = e.masterKey ∧ s.oiv = e.oiv →
      (whileBlocks 16 kCtrBody s inp).1.masterKey = e.masterKey ∧ (whileBlocks 16 kCtrBody s inp).1.oiv = e.oiv := by
    intro s inp hs
    refine whileBlocks_inv 16 kCtrBody (fun s => s.masterKey = e.masterKey ∧ s.oiv = e.oiv) ?_ s hs inp
    intro s xs hs _
    exact hs
  have h1 := hw { e with num := (kCtrPart e.partial_buffer e.num xs).1 } (kCtrPart e.partial_buffer e.num xs).2.2 ⟨rfl, rfl⟩
  simp only [gost_grasshopper_cipher_do_ctr]
  split <;> exact h1

theorem kuz_do_tlsInv (key iv : Bytes) (e : KCtx) (h : KTlsInv key iv e) (xs : Bytes) :
    KTlsInv key iv (gost_grasshopper_cipher_do_ctr e xs).1 := by
  have hr := (do_kctr_refines e.key e xs h.ctr).1
  exact ⟨by rw [hr.key]; exact hr, (kuz_do_keeps e xs).1.trans h.key, (kuz_do_keeps e xs).2.trans h.oiv⟩

theorem kuz_ctl_eq (X : Crypto) (key iv : Bytes) (hiv : iv.length = 8) (e : KCtx) (h : KTlsInv key iv e) (arg : Int)
    (seq : Bytes) (hs : seq.length = 8) (ha : arg = 0 ∨ arg = 1) :
    gost_grasshopper_cipher_ctl_tlstree X e true arg seq =
      (gost_grasshopper_cipher_key { e with num := 0, iv := beBytes 8 ((beNat iv + recordNo seq arg) % 2^64) ++ zeros 8 }
        (tlstree X.hmac .kuznyechik key (recordNo seq arg)), 1) := by
  obtain ⟨d1, d2⟩ := decrement_ok seq hs arg ha
  have hb : beNat (beBytes 8 (recordNo seq arg)) = recordNo seq arg := by
    rw [beNat_beBytes, Nat.mod_eq_of_lt (by simpa using d2)]
  simp only [gost_grasshopper_cipher_ctl_tlstree, List.take_of_length_le (Nat.le_of_eq hs), d1, Bool.not_true]
  rw [if_neg (by decide), if_neg (by decide), tlstree_eq X .kuznyechik _ _ (by simp)]
  simp only [h.key, h.oiv, hb]
  rw [List.take_left' hiv, C37_kuz_adjust iv _ hiv (by simp), hb]

theorem kuz_ctl_refuses (X : Crypto) (e : KCtx) (arg : Int) (seq : Bytes) (hs : seq.length = 8)
    (ha : ¬ (arg = 0 ∨ arg = 1)) : gost_grasshopper_cipher_ctl_tlstree X e true arg seq = (e, -1) := by
  simp only [gost_grasshopper_cipher_ctl_tlstree, List.take_of_length_le (Nat.le_of_eq hs), Bool.not_true]
  have hd : decrement_sequence seq arg = (seq, 0) := by
    rw [C37_decrement seq hs, if_neg (by omega), if_neg (by omega)]
  rw [hd, if_neg (by decide), if_pos rfl]

theorem kuz_rekey_inv (e : KCtx) (hb : e.partial_buffer.length = 16) (v k : Bytes) (hv : v.length = 16) (hk : k.length = 32) :
    KctrInv k (gost_grasshopper_cipher_key { e with num := 0, iv := v } k) ∧
    (gost_grasshopper_cipher_key { e with num := 0, iv := v } k).key = k := by
  refine ⟨⟨⟨rfl, rfl, copyN_length _ _, hv⟩, copyN_self hk, hb, (by decide : (0:Nat) < 16)⟩, copyN_self hk⟩

theorem kuz_hist_inv (X : Crypto) (key iv : Bytes) (hiv : iv.length = 8) (hist : List TlsEvent)
    (hh : ∀ arg seq, TlsEvent.record arg seq ∈ hist → seq.length = 8) (e : KCtx) (h : KTlsInv key iv e) :
    KTlsInv key iv (kuzTls X e hist) := by
  induction hist generalizing e with
  | nil => exact h
  | cons ev hist ih =>
    have hh' : ∀ arg seq, TlsEvent.record arg seq ∈ hist → seq.length = 8 := fun a s hm => hh a s (List.mem_cons_of_mem _ hm)
    cases ev with
    | update d => exact ih hh' _ (kuz_do_tlsInv key iv e h d)
    | record arg seq =>
      have hs := hh arg seq List.mem_cons_self
      refine ih hh' _ ?_
      by_cases ha : arg = 0 ∨ arg = 1
      · rw [kuz_ctl_eq X key iv hiv e h arg seq hs ha]
        obtain ⟨r1, r2⟩ := kuz_rekey_inv e h.ctr.buf (beBytes 8 ((beNat iv + recordNo seq arg) % 2^64) ++ zeros 8)
          (tlstree X.hmac .kuznyechik key (recordNo seq arg)) (by simp [zeros]) (tlstree_length _ _ _ _)
        exact ⟨by rw [r2]; exact r1, h.key, h.oiv⟩
      · rw [kuz_ctl_refuses X e arg seq hs ha]
        exact h

/-- **C37.** The same for Kuznyechik-CTR, where IV and record number are added modulo `2^64`. -/
theorem C37_kuz_record (X : Crypto) (enc : Bool) (key iv : Bytes) (hk : key.length = 32)
    (hiv : iv.length = 8) (hist : List TlsEvent) (hh : ∀ arg seq, TlsEvent.record arg seq ∈ hist → seq.length = 8)
    (arg : Int) (seq : Bytes) (hs : seq.length = 8) (ha : arg = 0 ∨ arg = 1) (chunks : List Bytes) :
    let r := gost_grasshopper_cipher_ctl_tlstree X (kuzTls X (kCtrSession enc key iv) hist) true arg seq
    r.2 = 1 ∧
    (feed gost_grasshopper_cipher_do_ctr r.1 chunks).2 =
      ctrCrypt engineE .kuznyechik (tlstree X.hmac .kuznyechik key (recordNo seq arg))
        (beBytes 8 ((beNat iv + recordNo seq arg) % 2^64)) chunks.flatten := by
  have h0 : KTlsInv key iv (kCtrSession enc key iv) := by
    obtain ⟨f1, f2, f3, f4⟩ := kCtrSession_facts enc key iv hk hiv
    refine ⟨by rw [f3]; exact f1, copyN_self hk, ?_⟩
    show memcpyTo (zeros 16) iv 8 = iv ++ zeros 8
    match iv, hiv with
    | [b0, b1, b2, b3, b4, b5, b6, b7], _ => rfl
  have h := kuz_hist_inv X key iv hiv hist hh _ h0
  generalize kuzTls X (kCtrSession enc key iv) hist = e at *
  simp only
  rw [kuz_ctl_eq X key iv hiv e h arg seq hs ha]
  obtain ⟨r1, r2⟩ := kuz_rekey_inv e h.ctr.buf (beBytes 8 ((beNat iv + recordNo seq arg) % 2^64) ++ zeros 8)
    (tlstree X.hmac .kuznyechik key (recordNo seq arg)) (by simp [zeros]) (tlstree_length _ _ _ _)
  refine ⟨rfl, ?_⟩
  rw [kctr_history _ (by rw [r2]; exact r1) rfl, r2]
  rfl

/-- **C37.** Hence decryption inverts encryption record by record, whatever the two sides did before. -/
theorem C37_magma_record_roundtrip (X : Crypto) (rng rng' : Nat → Fin 8 → W32) (key iv : Bytes) (hk : key.length = 32)
    (hiv : iv.length = 4) (hist hist' : List TlsEvent)
    (hh : ∀ arg seq, TlsEvent.record arg seq ∈ hist → seq.length = 8)
    (hh' : ∀ arg seq, TlsEvent.record arg seq ∈ hist' → seq.length = 8)
    (arg : Int) (seq : Bytes) (hs : seq.length = 8) (ha : arg = 0 ∨ arg = 1) (chunks chunks' : List Bytes)
    (hc : chunks'.flatten = (feed magma_cipher_do_ctr
      (magma_cipher_ctl_tlstree X (magmaTls X (magmaSession rng true 4 false key iv) hist) true arg seq).1 chunks).2) :
    (feed magma_cipher_do_ctr
      (magma_cipher_ctl_tlstree X (magmaTls X (magmaSession rng' false 4 false key iv) hist') true arg seq).1 chunks').2 =
      chunks.flatten := by
  rw [(C37_magma_record X rng' false key iv hk hiv hist' hh' arg seq hs ha chunks').2, hc,
    (C37_magma_record X rng true key iv hk hiv hist hh arg seq hs ha chunks).2, ctrCrypt_twice]

theorem C37_kuz_record_roundtrip (X : Crypto) (key iv : Bytes) (hk : key.length = 32)
    (hiv : iv.length = 8) (hist hist' : List TlsEvent)
    (hh : ∀ arg seq, TlsEvent.record arg seq ∈ hist → seq.length = 8)
    (hh' : ∀ arg seq, TlsEvent.record arg seq ∈ hist' → seq.length = 8)
    (arg : Int) (seq : Bytes) (hs : seq.length = 8) (ha : arg = 0 ∨ arg = 1) (chunks chunks' : List Bytes)
    (hc : chunks'.flatten = (feed gost_grasshopper_cipher_do_ctr
      (gost_grasshopper_cipher_ctl_tlstree X (kuzTls X (kCtrSession true key iv) hist) true arg seq).1 chunks).2) :
    (feed gost_grasshopper_cipher_do_ctr
      (gost_grasshopper_cipher_ctl_tlstree X (kuzTls X (kCtrSession false key iv) hist') true arg seq).1 chunks').2 =
      chunks.flatten := by
  rw [(C37_kuz_record X false key iv hk hiv hist' hh' arg seq hs ha chunks').2, hc,
    (C37_kuz_record X true key iv hk hiv hist hh arg seq hs ha chunks).2, ctrCrypt_twice]

/-- **C37.** An argument other than 0 and 1, or a context that is not in CTR mode, is refused and changes nothing. -/
theorem C37_refused (X : Crypto) (e : CipherCtx) (c : KCtx) (ctr : Bool) (arg : Int) (seq : Bytes) (hs : seq.length = 8)
    (h : ctr = false ∨ ¬ (arg = 0 ∨ arg = 1)) :
    magma_cipher_ctl_tlstree X e ctr arg seq = (e, -1) ∧ gost_grasshopper_cipher_ctl_tlstree X c ctr arg seq = (c, -1) := by
  cases ctr
  · exact ⟨rfl, rfl⟩
  · have ha : ¬ (arg = 0 ∨ arg = 1) := by simpa using h
    exact ⟨magma_ctl_refuses X e arg seq hs ha, kuz_ctl_refuses X c arg seq hs ha⟩

/-- Witness: a borrow through all eight bytes, a carry into the IV. -/
example : decrement_sequence [1, 0, 0, 0, 0, 0, 0, 0] 1 = ([0, 0xff, 0xff, 0xff, 0xff, 0xff, 0xff, 0xff], 1) ∧
    recordNo [0, 0, 0, 0, 0, 0, 0, 0] 1 = 2^64 - 1 ∧
    adjLoop [0, 0, 0, 0, 0, 0, 0, 1] 4 4 0 ([0, 0xff, 0xff, 0xff] ++ zeros 4) = [1, 0, 0, 0, 0, 0, 0, 0] := by decide

end Gost
