import Verif.Model.CipherAsn1
import Verif.Props.GostModes
import Verif.Props.KuzModes

/-!
# C47, C48, C55: algorithm parameters of the ciphers

`cd` is any DER codec (OpenSSL's); round-trip theorems assume `cd.Sound`.  EVP callers treat a
result `≤ 0` as failure.
-/

namespace Gost
open Spec

/-! ## A concrete DER codec, to show that `Asn1Codec.Sound` can be met -/

namespace DerWit

/-- Contents of the OBJECT IDENTIFIERs (1.2.643.2.2.31.n, 1.2.643.7.1.2.5.1.1) with tag and length. -/
def oid : ParamNID → Bytes
  | .test => [6, 7, 0x2A, 0x85, 3, 2, 2, 0x1F, 0]
  | .cryptoProA => [6, 7, 0x2A, 0x85, 3, 2, 2, 0x1F, 1]
  | .cryptoProB => [6, 7, 0x2A, 0x85, 3, 2, 2, 0x1F, 2]
  | .cryptoProC => [6, 7, 0x2A, 0x85, 3, 2, 2, 0x1F, 3]
  | .cryptoProD => [6, 7, 0x2A, 0x85, 3, 2, 2, 0x1F, 4]
  | .tc26Z => [6, 9, 0x2A, 0x85, 3, 7, 1, 2, 5, 1, 1]

def findOid (b : Bytes) : Option AsnObj :=
  if b = [] then none
  else match [ParamNID.test, .cryptoProA, .cryptoProB, .cryptoProC, .cryptoProD, .tc26Z].find? (fun p => oid p == b) with
    | some p => some (.known p)
    | none => some .undef

/-- Definite short-form DER. -/
def codec : Asn1Codec where
  enc2015 u := 0x30 :: BitVec.ofNat 8 (u.length + 2) :: 4 :: BitVec.ofNat 8 u.length :: u
  dec2015
    | t :: l :: t2 :: m :: u =>
      if t = 0x30 ∧ t2 = 4 ∧ l.toNat = m.toNat + 2 ∧ u.length = m.toNat ∧ m.toNat < 100 then some u else none
    | _ => none
  enc89 iv p :=
    let body := 4 :: BitVec.ofNat 8 iv.length :: (iv ++ (p.map oid).getD [])
    0x30 :: BitVec.ofNat 8 body.length :: body
  dec89
    | t :: l :: t2 :: m :: r =>
      if t = 0x30 ∧ t2 = 4 ∧ l.toNat = r.length + 2 ∧ m.toNat ≤ r.length ∧ l.toNat < 100 then
        (findOid (r.drop m.toNat)).map fun o => (r.take m.toNat, o)
      else none
    | _ => none

theorem codec_sound : codec.Sound where
  r2015 u hu := by
    simp only [codec]
    rw [if_pos]
    simp only [BitVec.toNat_ofNat, true_and]
    omega
  r89 iv p hu := by
    have hl : (oid p).length ≤ 11 := by cases p <;> decide
    simp only [codec, Option.map_some, Option.getD_some]
    rw [if_pos]
    · have hm : (BitVec.ofNat 8 iv.length).toNat = iv.length := by rw [BitVec.toNat_ofNat]; omega
      rw [hm, List.drop_left, List.take_left]
      cases p <;> rfl
    · simp only [BitVec.toNat_ofNat, true_and, List.length_append, List.length_cons]
      omega
  r89undef iv := by
    left
    simp only [codec, Option.map_none, Option.getD_none, List.append_nil]
    split
    · rename_i h
      obtain ⟨_, _, h1, h2, h3⟩ := h
      rw [BitVec.toNat_ofNat] at h1 h2 h3
      rw [BitVec.toNat_ofNat, List.drop_eq_nil_of_le]
      · rfl
      · simp only [List.length_cons] at h1 h3
        omega
    · rfl

end DerWit

/-! ## C47 -/

namespace Spec

/-- Well-formed parameters of the 2015 ciphers: a SEQUENCE whose DER holds a UKM of the right size. -/
def WellFormed2015 (cd : Asn1Codec) (size : Nat) : AsnType → Prop
  | .other => False
  | .seq der => ∃ ukm, cd.dec2015 der = some ukm ∧ ukm.length = size

/-- Well-formed GOST 28147-89 parameters: a SEQUENCE with an 8-byte IV and a supported S-box set. -/
def WellFormed89 (cd : Asn1Codec) : AsnType → Prop
  | .other => False
  | .seq der => ∃ iv p, cd.dec89 der = some (iv, .known p) ∧ iv.length = 8

end Spec

/-- **C47** Kuznyechik CTR, CTR-ACPKM, CTR-ACPKM-OMAC: loading parameters succeeds exactly for
well-formed ones; a failure changes neither the context nor the KDF seed. -/
theorem C47_kuznyechik (cd : Asn1Codec) (c : KCtx) (hc : kuzIsCtr c.type = true) (seed : Bytes) (params : AsnType) :
    (0 < (gost_grasshopper_get_asn1_parameters cd c seed params).1 ↔ WellFormed2015 cd 16 params) ∧
    ((gost_grasshopper_get_asn1_parameters cd c seed params).1 ≤ 0 →
      gost_grasshopper_get_asn1_parameters cd c seed params = (0, c, seed)) := by
  unfold gost_grasshopper_get_asn1_parameters gost2015_get_asn1_params
  rw [if_pos hc]
  cases params with
  | other => simp [WellFormed2015]
  | seq der =>
    cases hd : cd.dec2015 der with
    | none => simp [WellFormed2015, hd]
    | some u =>
      by_cases hu : u.length = 16 <;> simp [WellFormed2015, hd, hu]

/-- **C47** The other Kuznyechik ciphers refuse to load or store parameters. -/
theorem C47_kuznyechik_no_params (cd : Asn1Codec) (c : KCtx) (hc : kuzIsCtr c.type = false) (seed : Bytes)
    (params : AsnType) :
    gost_grasshopper_get_asn1_parameters cd c seed params = (0, c, seed) ∧
    gost_grasshopper_set_asn1_parameters cd c seed = (0, c, none) := by
  simp [gost_grasshopper_get_asn1_parameters, gost_grasshopper_set_asn1_parameters, hc]

/-- **C47** is false for Magma: loading *any* parameters reports success; malformed ones set the IV
to zero and leave the KDF seed as it was. -/
theorem C47_magma_false (cd : Asn1Codec) (e : CipherCtx) (hl : e.iv.length = 8 ∧ e.oiv.length = 8) (seed : Bytes)
    (params : AsnType) :
    (magma_get_asn1_parameters cd e seed params).1 = 1 ∧
    (¬ WellFormed2015 cd 12 params →
      magma_get_asn1_parameters cd e seed params =
        (1, { e with iv := zeros 8, oiv := zeros 8, key_meshing := 8192 }, seed)) := by
  have hz : ∀ b : Bytes, b.length = 8 → memcpy b (zeros 16) 8 = zeros 8 := by
    intro b hb
    rw [memcpy, List.drop_eq_nil_of_le (by omega), List.append_nil]
    rfl
  unfold magma_get_asn1_parameters gost2015_get_asn1_params
  cases params with
  | other => simp [hz _ hl.1, hz _ hl.2]
  | seq der =>
    cases hd : cd.dec2015 der with
    | none => simp [hd, hz _ hl.1, hz _ hl.2]
    | some u =>
      by_cases hu : u.length = 12 <;> simp [hd, hu, WellFormed2015, hz _ hl.1, hz _ hl.2]

/-- **C47** for Magma when the parameters are well-formed (the part that holds): the IV and the seed
are loaded. -/
theorem C47_magma_partial (cd : Asn1Codec) (e : CipherCtx) (hl : e.iv.length = 8 ∧ e.oiv.length = 8) (seed : Bytes)
    (hs : seed.length = 8) (der ukm : Bytes) (hd : cd.dec2015 der = some ukm) (hu : ukm.length = 12) :
    magma_get_asn1_parameters cd e seed (.seq der) =
      (1, { e with iv := ukm.take 4 ++ zeros 4, oiv := ukm.take 4 ++ zeros 4, key_meshing := 8192 }, ukm.drop 4) := by
  have hz : ∀ b : Bytes, b.length = 8 → memcpy b (memcpy (zeros 16) ukm 4) 8 = ukm.take 4 ++ zeros 4 := by
    intro b hb
    match ukm, hu with
    | [a0, a1, a2, a3, _, _, _, _, _, _, _, _], _ =>
      rw [memcpy, List.drop_eq_nil_of_le (by omega), List.append_nil]
      rfl
  have hk : memcpy seed (ukm.drop 4) 8 = ukm.drop 4 := by
    have hsd : seed.drop 8 = [] := List.drop_eq_nil_of_le (by omega)
    rw [memcpy, List.take_of_length_le (by simp [hu]), hsd, List.append_nil]
  simp [magma_get_asn1_parameters, gost2015_get_asn1_params, hd, hu, hz _ hl.1, hz _ hl.2, hk]

/-- Malformed parameters exist: with the DER codec, an empty SEQUENCE. -/
example : ¬ WellFormed2015 DerWit.codec 12 (.seq [0x30, 0]) := by
  rintro ⟨u, h, _⟩
  have h' : (none : Option Bytes) = some u := h
  simp at h'

/-- **C47** GOST 28147-89, for parameters that decode or are not a SEQUENCE: success exactly for
well-formed ones, and a failure changes nothing. -/
theorem C47_gost89_partial (cd : Asn1Codec) (e : CipherCtx) (nid : Option ParamNID) (params : AsnType)
    (hd : ∀ der, params = .seq der → cd.dec89 der ≠ none) :
    ∃ code s, gost89_get_asn1_parameters cd e nid params = .ret code s ∧
      (0 < code ↔ WellFormed89 cd params) ∧ (code ≤ 0 → s = (e, nid)) := by
  cases params with
  | other => exact ⟨_, _, rfl, by simp [WellFormed89], fun _ => rfl⟩
  | seq der =>
    have hn := hd der rfl
    unfold gost89_get_asn1_parameters
    cases h : cd.dec89 der with
    | none => exact absurd h hn
    | some r =>
      obtain ⟨iv, o⟩ := r
      by_cases hl : iv.length = 8
      · cases o <;> simp [hl, WellFormed89, h]
      · simp [hl, WellFormed89, h]

/-- **C47** is false for GOST 28147-89: parameters that do not decode make the callback
dereference a null pointer instead of reporting failure. -/
theorem C47_gost89_false (cd : Asn1Codec) (e : CipherCtx) (nid : Option ParamNID) (der : Bytes)
    (hd : cd.dec89 der = none) : gost89_get_asn1_parameters cd e nid (.seq der) = .nullDeref := by
  simp [gost89_get_asn1_parameters, hd]

example : DerWit.codec.dec89 [0x30, 0] = none := rfl

/-! ## C48 -/

/-- **C48** Kuznyechik: what `set_asn1` stores in one context, `get_asn1` loads into any other: the
8-byte IV part (counter part zero), the KDF seed and the 256 KiB section size. -/
theorem C48_kuznyechik (cd : Asn1Codec) (hcd : cd.Sound) (c1 c2 : KCtx) (h1 : kuzIsCtr c1.type = true)
    (h2 : kuzIsCtr c2.type = true) (ho : c1.oiv.length = 16) (hl : c2.iv.length = 16 ∧ c2.oiv.length = 16)
    (seed1 seed2 : Bytes) (hs1 : seed1.length = 8) (hs2 : seed2.length = 8) :
    ∃ params, gost_grasshopper_set_asn1_parameters cd c1 seed1 =
        (1, { c1 with section_size := 262144 }, some params) ∧
      gost_grasshopper_get_asn1_parameters cd c2 seed2 params =
        (1, { c2 with iv := c1.oiv.take 8 ++ zeros 8, oiv := c1.oiv.take 8 ++ zeros 8, section_size := 262144 },
          seed1) := by
  refine ⟨.seq (cd.enc2015 (c1.oiv.take 8 ++ seed1)), ?_, ?_⟩
  · rw [gost_grasshopper_set_asn1_parameters, if_pos h1]
    simp [gost2015_set_asn1_params, List.take_of_length_le, hs1]
  · have hlen : (c1.oiv.take 8 ++ seed1).length = 16 := by simp [ho, hs1]
    have hd : (c1.oiv.take 8 ++ seed1).drop 8 = seed1 := by
      rw [List.drop_append, List.drop_eq_nil_of_le (by simp)]
      simp [ho]
    have ht : (c1.oiv.take 8 ++ seed1).take 8 = c1.oiv.take 8 := by
      rw [List.take_append_of_le_length (by simp [ho]), List.take_take]
      rfl
    have hz : ∀ b : Bytes, b.length = 16 →
        memcpyTo b (memcpy (zeros 16) (c1.oiv.take 8 ++ seed1) 8) 16 = c1.oiv.take 8 ++ zeros 8 := by
      intro b hb
      rw [memcpy, ht]
      have hbd : b.drop 16 = [] := List.drop_eq_nil_of_le (by omega)
      rw [memcpyTo, hbd, List.append_nil, List.take_of_length_le (by simp [zeros, ho])]
      rfl
    have hk : memcpy seed2 ((c1.oiv.take 8 ++ seed1).drop 8) 8 = seed1 := by
      rw [hd, memcpy, List.take_of_length_le (by omega), List.drop_eq_nil_of_le (by omega), List.append_nil]
    have hget : gost2015_get_asn1_params cd (.seq (cd.enc2015 (c1.oiv.take 8 ++ seed1))) 16 8 seed2 =
        (1, memcpy (zeros 16) (c1.oiv.take 8 ++ seed1) 8, memcpy seed2 ((c1.oiv.take 8 ++ seed1).drop 8) 8) := by
      simp only [gost2015_get_asn1_params, hcd.r2015 _ (Nat.le_of_eq hlen)]
      rw [if_neg (by rw [hlen]; decide)]
    rw [gost_grasshopper_get_asn1_parameters, if_pos h2]
    simp only [hget]
    rw [if_neg (by decide), hz _ hl.1, hz _ hl.2, hk]

/-- **C48** Magma: the 4-byte IV part (counter part zero), the KDF seed and the 8 KiB section size. -/
theorem C48_magma (cd : Asn1Codec) (hcd : cd.Sound) (e1 e2 : CipherCtx)
    (ho : e1.oiv.length = 8) (hl : e2.iv.length = 8 ∧ e2.oiv.length = 8)
    (seed1 seed2 : Bytes) (hs1 : seed1.length = 8) (hs2 : seed2.length = 8) :
    ∃ params, magma_set_asn1_parameters cd e1 seed1 = (1, { e1 with key_meshing := 8192 }, params) ∧
      magma_get_asn1_parameters cd e2 seed2 params =
        (1, { e2 with iv := e1.oiv.take 4 ++ zeros 4, oiv := e1.oiv.take 4 ++ zeros 4, key_meshing := 8192 },
          seed1) := by
  have hlen : (e1.oiv.take 4 ++ seed1).length = 12 := by simp [ho, hs1]
  have hd : (e1.oiv.take 4 ++ seed1).drop 4 = seed1 := by
    rw [List.drop_append, List.drop_eq_nil_of_le (by simp)]
    simp [ho]
  have ht : (e1.oiv.take 4 ++ seed1).take 4 = e1.oiv.take 4 := by
    rw [List.take_append_of_le_length (by simp [ho]), List.take_take]
    rfl
  refine ⟨.seq (cd.enc2015 (e1.oiv.take 4 ++ seed1)), ?_, ?_⟩
  · simp [magma_set_asn1_parameters, gost2015_set_asn1_params, List.take_of_length_le, hs1]
  · rw [C47_magma_partial cd e2 hl seed2 hs2 _ _ (hcd.r2015 _ (by omega)) hlen, ht, hd]

/-- **C48** GOST 28147-89: the current IV and the recorded parameter set; the receiving context gets
the IV as its original IV and the S-box set. -/
theorem C48_gost89 (cd : Asn1Codec) (hcd : cd.Sound) (e1 e2 : CipherCtx) (p : ParamNID) (nid2 : Option ParamNID)
    (h1 : e1.iv.length = 8) (h2 : e2.oiv.length = 8) :
    ∃ params, gost89_set_asn1_parameters cd e1 (some p) = (1, params) ∧
      gost89_get_asn1_parameters cd e2 nid2 params =
        .ret 1 ({ gost_cipher_set_param e2 p with oiv := e1.iv }, some p) := by
  have ht : e1.iv.take 8 = e1.iv := List.take_of_length_le (by omega)
  have hm : memcpy e2.oiv e1.iv 8 = e1.iv := by
    have hd : e2.oiv.drop 8 = [] := List.drop_eq_nil_of_le (by omega)
    rw [memcpy, ht, hd, List.append_nil]
  have hg : (gost_cipher_set_param e2 p).oiv = e2.oiv := by unfold gost_cipher_set_param; rfl
  refine ⟨.seq (cd.enc89 (e1.iv.take 8) (some p)), rfl, ?_⟩
  rw [ht]
  simp only [gost89_get_asn1_parameters, hcd.r89 e1.iv p (by omega)]
  rw [if_neg (by rw [h1]; decide), hg, hm]

/-- **C48** is false for the GOST 28147-89 counter ciphers: their initialisation records no
parameter set, so `set_asn1` stores an undefined one and loading it never succeeds. -/
theorem C48_gost89_cnt_false (cd : Asn1Codec) (hcd : cd.Sound) (e1 e2 : CipherCtx) (nid2 : Option ParamNID)
    (env : Option (Option ParamNID)) :
    ∃ params, gost89_set_asn1_parameters cd e1 (paramNIDAfterInit true env) = (1, params) ∧
      (gost89_get_asn1_parameters cd e2 nid2 params = .nullDeref ∨
       gost89_get_asn1_parameters cd e2 nid2 params = .ret (-1) (e2, nid2)) := by
  refine ⟨.seq (cd.enc89 (e1.iv.take 8) none), rfl, ?_⟩
  rcases hcd.r89undef (e1.iv.take 8) with h | ⟨iv', h⟩
  · left
    simp only [gost89_get_asn1_parameters, h]
  · right
    simp only [gost89_get_asn1_parameters, h]
    split <;> rfl

example : DerWit.codec.Sound := DerWit.codec_sound

end Gost
