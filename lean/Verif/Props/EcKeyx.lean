import Verif.Props.EcSign
import Verif.Props.Tls

/-!
# C40, C41: VKO key agreement and KEG
-/

namespace Gost

open Spec (leNat beNat leBytes beBytes)

variable {G : Type} [AddCommGroup G]

theorem lt_pow_num_bytes (n : Nat) : n < 256 ^ BN_num_bytes n := by
  induction n using Nat.strong_induction_on with
  | _ n ih =>
    unfold BN_num_bytes
    split
    · omega
    · rename_i h
      have := ih (n / 256) (by omega)
      rw [Nat.pow_succ]
      omega

/-- The bytes hashed by VKO for a shared point: the two coordinates, little-endian, in the size of the field. -/
def sharedBytes (E : EcGroup G) (P : G) : Option Bytes :=
  (E.coords P).map fun xy => leBytes (BN_num_bytes E.field) xy.1 ++ leBytes (BN_num_bytes E.field) xy.2

theorem vko_eq (E : EcGroup G) (hE : E.Sound) (md : Bytes → Bytes) (Q : G) (hQ : Q ≠ 0) (d : Nat) (ukm : Bytes) :
    VKO_compute_key E md Q d ukm = (sharedBytes E ((E.cofactor * (leNat ukm * d % E.order)) • Q)).map md := by
  unfold VKO_compute_key
  simp only [gost_ec_point_mul, hE.mulVar Q _ (Nat.mod_lt _ hE.prime.pos) hQ]
  show (E.coords ((E.cofactor * (leNat ukm * d % E.order)) • Q)).bind _ = _
  unfold sharedBytes
  by_cases h0 : (E.cofactor * (leNat ukm * d % E.order)) • Q = 0
  · rw [h0, hE.coords_zero]; rfl
  · obtain ⟨x, y, hc, hx, hy⟩ := hE.coords_some _ h0
    have hb := lt_pow_num_bytes E.field
    simp only [hc, Option.bind_some, Option.map_some, BN_bn2lebinpad, if_pos (lt_trans hx hb), if_pos (lt_trans hy hb)]
    rfl

/-- **C40**: VKO is the standard's: the digest of the coordinates of the point `(cofactor * UKM * d) Q` (the UKM read
little-endian), for every public key `Q` in the group of order `q`; the cofactor enters once. -/
theorem C40_vko_is_standard (E : EcGroup G) (hE : E.Sound) (md : Bytes → Bytes) (Q : G) (hQ : Q ≠ 0) (hQq : E.order • Q = 0)
    (d : Nat) (ukm : Bytes) :
    VKO_compute_key E md Q d ukm = (sharedBytes E (Spec.vkoPoint E.cofactor (leNat ukm) d Q)).map md := by
  rw [vko_eq E hE md Q hQ d ukm]
  congr 2
  unfold Spec.vkoPoint
  apply nsmul_congr hQq
  push_cast [ZMod.natCast_mod]
  ring

/-- **C40**: both sides of the key agreement obtain the same result (key or failure), for every pair of key pairs, UKM and
digest. -/
theorem C40_vko_symmetric (E : EcGroup G) (hE : E.Sound) (md : Bytes → Bytes) (dA dB : Nat) (QA QB : G)
    (hA : gost_ec_compute_public E dA = some QA) (hB : gost_ec_compute_public E dB = some QB)
    (hA1 : dA < 256 ^ BN_num_bytes E.field) (hB1 : dB < 256 ^ BN_num_bytes E.field)
    (hA0 : ¬ E.order ∣ dA) (hB0 : ¬ E.order ∣ dB) (ukm : Bytes) :
    VKO_compute_key E md QB dA ukm = VKO_compute_key E md QA dB ukm := by
  simp only [gost_ec_compute_public, gost_ec_point_mul, hE.mulG _ hA1, hE.mulG _ hB1, Option.some.injEq] at hA hB
  have hA2 : QA ≠ 0 := by
    rw [← hA]; intro h; exact hA0 ((nsmul_eq_zero_iff hE.prime hE.gen_order hE.gen_ne).1 h)
  have hB2 : QB ≠ 0 := by
    rw [← hB]; intro h; exact hB0 ((nsmul_eq_zero_iff hE.prime hE.gen_order hE.gen_ne).1 h)
  have hA3 : E.order • QA = 0 := by rw [← hA, nsmul_left_comm, hE.gen_order, nsmul_zero]
  have hB3 : E.order • QB = 0 := by rw [← hB, nsmul_left_comm, hE.gen_order, nsmul_zero]
  rw [C40_vko_is_standard E hE md QB hB2 hB3, C40_vko_is_standard E hE md QA hA2 hA3]
  congr 2
  unfold Spec.vkoPoint
  rw [← hA, ← hB, ← mul_nsmul, ← mul_nsmul]
  congr 1
  ring

/-- **C40**: VKO fails exactly when the UKM or the private key is 0 modulo `q`. -/
theorem C40_vko_fails_iff (E : EcGroup G) (hE : E.Sound) (md : Bytes → Bytes) (Q : G) (hQ : Q ≠ 0) (hQq : E.order • Q = 0)
    (d : Nat) (ukm : Bytes) :
    VKO_compute_key E md Q d ukm = none ↔ E.order ∣ leNat ukm ∨ E.order ∣ d := by
  rw [C40_vko_is_standard E hE md Q hQ hQq]
  have h1 : (sharedBytes E (Spec.vkoPoint E.cofactor (leNat ukm) d Q)).map md = none ↔
      Spec.vkoPoint E.cofactor (leNat ukm) d Q = 0 := by
    constructor
    · intro h
      by_contra h0
      obtain ⟨x, y, hc, _⟩ := hE.coords_some _ h0
      simp [sharedBytes, hc] at h
    · intro h; rw [h]; simp [sharedBytes, hE.coords_zero]
  rw [h1]
  unfold Spec.vkoPoint
  rw [nsmul_eq_zero_iff hE.prime hQq hQ, hE.prime.dvd_mul, hE.prime.dvd_mul]
  have := hE.cofactor
  tauto

/-- **C40**: adding to the peer's public key a point killed by the cofactor does not change the result. -/
theorem C40_vko_small_subgroup (E : EcGroup G) (hE : E.Sound) (md : Bytes → Bytes) (Q T : G) (hQ : Q ≠ 0)
    (hT : E.cofactor • T = 0) (hQT : Q + T ≠ 0) (d : Nat) (ukm : Bytes) :
    VKO_compute_key E md (Q + T) d ukm = VKO_compute_key E md Q d ukm := by
  rw [vko_eq E hE md _ hQT, vko_eq E hE md _ hQ, nsmul_add]
  have : (E.cofactor * (leNat ukm * d % E.order)) • T = 0 := by
    rw [mul_nsmul, hT, nsmul_zero]
  rw [this, add_zero]

/-- **C40**: a peer key of small order (killed by the cofactor) is refused. -/
theorem C40_vko_small_order_refused (E : EcGroup G) (hE : E.Sound) (md : Bytes → Bytes) (T : G) (hT0 : T ≠ 0)
    (hT : E.cofactor • T = 0) (d : Nat) (ukm : Bytes) : VKO_compute_key E md T d ukm = none := by
  rw [vko_eq E hE md _ hT0]
  have : (E.cofactor * (leNat ukm * d % E.order)) • T = 0 := by
    rw [mul_nsmul, hT, nsmul_zero]
  simp [this, sharedBytes, hE.coords_zero]

/-! ## KEG -/

theorem beNat_eq_zero_iff (b : Bytes) : beNat b = 0 ↔ b = zeros b.length := by
  constructor
  · intro h
    have h2 := beBytes_beNat b b.length rfl
    rw [h] at h2
    rw [← h2]
    have h3 : ∀ n, beBytes n 0 = zeros n := by
      intro n
      induction n with
      | zero => rfl
      | succ n ih => simp only [beBytes, Nat.zero_div, ih, zeros]; rw [List.replicate_succ']; rfl
    rw [h3]; simp [zeros]
  · intro h
    have h3 : beNat (zeros b.length) = 0 := by
      have := beNat_reverse (zeros b.length)
      rwa [show (zeros b.length).reverse = zeros b.length from List.reverse_replicate, zeros, leNat_replicate_zero] at this
    rw [h]; exact h3

/-- **C41**: the multiplier KEG hands to VKO: the first 16 bytes of the UKM read big-endian, and `2^120` when they are all
zero. -/
theorem C41_keg_multiplier (ukm : Bytes) (hl : 16 ≤ ukm.length) :
    leNat (kegUkm ukm) = if beNat (ukm.take 16) = 0 then 2^120 else beNat (ukm.take 16) := by
  have hlen : (ukm.take 16).length = 16 := by simp [hl]
  unfold kegUkm
  have hz := beNat_eq_zero_iff (ukm.take 16)
  rw [hlen] at hz
  by_cases h : ukm.take 16 = zeros 16
  · rw [if_pos h, if_pos (hz.2 h)]; decide
  · rw [if_neg h, if_neg (fun h2 => h (hz.1 h2)), ← beNat_reverse, List.reverse_reverse]

/-- **C41**: the multiplier is never 0 modulo `q` (for `q > 2^128`, as for all parameter sets). -/
theorem C41_keg_multiplier_nonzero (q : Nat) (hq : 2^128 < q) (ukm : Bytes) (hl : 16 ≤ ukm.length) :
    ¬ q ∣ leNat (kegUkm ukm) := by
  rw [C41_keg_multiplier ukm hl]
  have hlt : beNat (ukm.take 16) < 2^128 := by
    have h := beNat_lt (ukm.take 16)
    have hlen : (ukm.take 16).length = 16 := by simp [hl]
    rw [hlen] at h
    exact lt_of_lt_of_eq h (by decide)
  split
  · exact Nat.not_dvd_of_pos_of_lt (by decide) (lt_trans (by decide) hq)
  · exact Nat.not_dvd_of_pos_of_lt (by omega) (by omega)

theorem kegUkm_length (ukm : Bytes) (hl : 16 ≤ ukm.length) : (kegUkm ukm).length = 16 := by
  unfold kegUkm
  split
  · rfl
  · simp [hl]

/-- **C41**: KEG for 512-bit keys: 64 bytes of Streebog-512 over the shared point with that multiplier. -/
theorem C41_keg_512 (E : EcGroup G) (hE : E.Sound) (X : Crypto) (md256 md512 : Bytes → Bytes) (ukm : Bytes) (hl : 16 ≤ ukm.length)
    (Q : G) (hQ : Q ≠ 0) (hQq : E.order • Q = 0) (d : Nat) :
    gost_keg E X md256 md512 ukm .gost2012_512 Q d =
      (sharedBytes E (Spec.vkoPoint E.cofactor (if beNat (ukm.take 16) = 0 then 2^120 else beNat (ukm.take 16)) d Q)).map md512 := by
  simp only [gost_keg]
  rw [C40_vko_is_standard E hE md512 Q hQ hQq, C41_keg_multiplier ukm hl]

/-- **C41**: KEG for 256-bit keys: KDF_TREE with `R = 1` and label "kdf tree" over the VKO key, seeded with bytes 16..23 of
the UKM, 64 bytes. -/
theorem C41_keg_256 (E : EcGroup G) (hE : E.Sound) (X : Crypto) (md256 md512 : Bytes → Bytes)
    (ukm : Bytes) (hl : ukm.length = 32) (Q : G) (hQ : Q ≠ 0) (hQq : E.order • Q = 0) (d : Nat) :
    gost_keg E X md256 md512 ukm .gost2012_256 Q d =
      (sharedBytes E (Spec.vkoPoint E.cofactor (if beNat (ukm.take 16) = 0 then 2^120 else beNat (ukm.take 16)) d Q)).map
        fun pt => Spec.kdfTree X.hmac (md256 pt) 1 kdfTreeLabel ((ukm.drop 16).take 8) 2 := by
  simp only [gost_keg]
  rw [C40_vko_is_standard E hE md256 Q hQ hQq, C41_keg_multiplier ukm (by omega)]
  cases sharedBytes E (Spec.vkoPoint E.cofactor (if beNat (ukm.take 16) = 0 then 2^120 else beNat (ukm.take 16)) d Q) with
  | none => rfl
  | some pt =>
    show gost_kdftree2012_256 X (32 * 2) (md256 pt) kdfTreeLabel ((ukm.drop 16).take 8) 1 = _
    rw [kdftree_eq X _ _ _ 2 1 (by decide) (by decide) (by decide)]
    rfl

/-- **C41**: KEG never fails for key pairs of the group, and both sides obtain the same key. -/
theorem C41_keg_agreement (E : EcGroup G) (hE : E.Sound) (hq : 2^128 < E.order) (X : Crypto) (md256 md512 : Bytes → Bytes)
    (ukm : Bytes) (hl : 16 ≤ ukm.length) (nid : PkeyNid) (hn : nid = .gost2012_256 ∨ nid = .gost2012_512)
    (dA dB : Nat) (QA QB : G)
    (hA : gost_ec_compute_public E dA = some QA) (hB : gost_ec_compute_public E dB = some QB)
    (hA1 : dA < 256 ^ BN_num_bytes E.field) (hB1 : dB < 256 ^ BN_num_bytes E.field)
    (hA0 : ¬ E.order ∣ dA) (hB0 : ¬ E.order ∣ dB) :
    gost_keg E X md256 md512 ukm nid QB dA = gost_keg E X md256 md512 ukm nid QA dB ∧
      gost_keg E X md256 md512 ukm nid QB dA ≠ none := by
  have sym := fun md => C40_vko_symmetric E hE md dA dB QA QB hA hB hA1 hB1 hA0 hB0 (kegUkm ukm)
  have hB' := hB
  simp only [gost_ec_compute_public, gost_ec_point_mul, hE.mulG _ hB1, Option.some.injEq] at hB'
  have hB2 : QB ≠ 0 := by
    rw [← hB']; intro h; exact hB0 ((nsmul_eq_zero_iff hE.prime hE.gen_order hE.gen_ne).1 h)
  have hB3 : E.order • QB = 0 := by rw [← hB', nsmul_left_comm, hE.gen_order, nsmul_zero]
  have ok : ∀ md, VKO_compute_key E md QB dA (kegUkm ukm) ≠ none := by
    intro md h
    rcases (C40_vko_fails_iff E hE md QB hB2 hB3 dA _).1 h with h | h
    · exact C41_keg_multiplier_nonzero E.order hq ukm hl h
    · exact hA0 h
  rcases hn with rfl | rfl
  · constructor
    · simp only [gost_keg, sym]
    · simp only [gost_keg]
      cases h : VKO_compute_key E md256 QB dA (kegUkm ukm) with
      | none => exact absurd h (ok md256)
      | some k =>
        intro h2
        have := (C35_refused X k kdfTreeLabel ((ukm.drop 16).take 8) 64 1).1 h2
        omega
  · exact ⟨by simp only [gost_keg, sym], ok md512⟩

/-- **C41 (finding)**: for an all-zero UKM the standard (R 1323565.1.020-2018) prescribes the multiplier 1; the code uses
`2^120` (the byte 1 is put at the end of a number that is then read little-endian), and the shared points differ. -/
theorem C41_zero_ukm_not_one (E : EcGroup G) (hE : E.Sound) (hq : 2^128 < E.order) (Q : G) (hQ : Q ≠ 0) (hQq : E.order • Q = 0)
    (d : Nat) (hd : ¬ E.order ∣ d) :
    leNat (kegUkm (zeros 32)) = 2^120 ∧
      Spec.vkoPoint E.cofactor (leNat (kegUkm (zeros 32))) d Q ≠ Spec.vkoPoint E.cofactor 1 d Q := by
  have h1 : leNat (kegUkm (zeros 32)) = 2^120 := by decide
  refine ⟨h1, ?_⟩
  rw [h1]
  intro h
  unfold Spec.vkoPoint at h
  have e : E.cofactor * 2^120 * d = E.cofactor * 1 * d + E.cofactor * (2^120 - 1) * d := by
    rw [← Nat.add_mul, ← Nat.mul_add]
    congr 2
  rw [e, add_nsmul] at h
  have h2 : (E.cofactor * (2^120 - 1) * d) • Q = 0 := by simpa using h
  rw [nsmul_eq_zero_iff hE.prime hQq hQ, hE.prime.dvd_mul, hE.prime.dvd_mul] at h2
  rcases h2 with (h2 | h2) | h2
  · exact hE.cofactor h2
  · exact Nat.not_dvd_of_pos_of_lt (by decide) (lt_trans (by decide) hq) h2
  · exact hd h2

/-- The hypotheses can be met: VKO in the toy group of order 7 with UKM 2, private keys 3 and 5. -/
example : VKO_compute_key toyGroup id 5 3 [2] = some [2, 2] ∧ VKO_compute_key toyGroup id 3 5 [2] = some [2, 2] := by
  decide +kernel

end Gost
