import Verif.Model.ProvAsn1
import Verif.Props.Cms
import Verif.Props.ProvCipher

/-!
# C87: algorithm parameters through the provider

A sender hands its data over with the algorithm parameters of its context; a receiver gives them to a context of the provider and then the key.
-/

namespace Gost
open Spec

variable {σ : Type}

/-! ## Specification -/

/-- The receiver: a new context of the provider, initialised without a key, given the parameters, initialised with the key, fed with the data, finished.
`none`: a call failed. -/
def provReceive (M : EvpMeth σ) (A : AsnMeth σ) (decAny : Bytes → Option AsnType) (der key : Bytes) (chunks : List Bytes) : Option Bytes :=
  let r := prov_cipher_init M prov_cipher_newctx none none 0 0 .none false
  if r.2 = false then none
  else
    match prov_set_params M A decAny r.1 (some der) .none with
    | .nullDeref => none
    | .ret code c =>
      if code ≤ 0 then none
      else
        let q := prov_cipher_init M c (some key) none key.length 0 .none false
        if q.2 then pcMessage M q.1 chunks else none

/-- The sender of the provider: a context initialised with key and IV. -/
def provSend (M : EvpMeth σ) (key iv : Bytes) : EvpCtx σ := (prov_cipher_init M prov_cipher_newctx (some key) (some iv) key.length iv.length .none true).1

/-- `d2i_ASN1_TYPE` reads a `SEQUENCE` back. -/
def DecAny (cd : Asn1Codec) (decAny : Bytes → Option AsnType) : Prop :=
  (∀ u, decAny (cd.enc2015 u) = some (.seq (cd.enc2015 u))) ∧ ∀ iv p, decAny (cd.enc89 iv p) = some (.seq (cd.enc89 iv p))

/-! ## Receiving -/

theorem provReceive_stream {M : EvpMeth σ} {A : AsnMeth σ} {decAny : Bytes → Option AsnType} {der key : Bytes} {params : AsnType} {s0 s1 s2 : σ}
    (h1 : M.blockSize = 1) (hk : key.length = M.keyLen) (hi : M.init M.fresh none none false = (s0, true)) (hd : decAny der = some params)
    (hl : A.load s0 params = .ret 1 s1) (hi2 : M.init s1 (some key) none false = (s2, true)) (chunks : List Bytes)
    (hx : ∀ x ∈ chunks, x.length + 16 ≤ intMax) :
    provReceive M A decAny der key chunks = some (feed M.doCipher s2 (chunks.filter (· ≠ []))).2 := by
  have e1 : prov_cipher_init M prov_cipher_newctx none none 0 0 .none false = (⟨some s0, false, [], [], false, false⟩, true) := by
    unfold prov_cipher_init
    rw [show prov_cipher_set_ctx_params M prov_cipher_newctx .none = (EvpCtx.new, true) from rfl]
    dsimp only
    rw [if_pos rfl, if_neg (by omega)]
    unfold evpCipherInit
    rw [show M.init ((EvpCtx.new : EvpCtx σ).data.getD M.fresh) none none false = (s0, true) from hi]
    rfl
  have e2 : prov_set_params M A decAny ⟨some s0, false, [], [], false, false⟩ (some der) .none = .ret 1 ⟨some s1, false, [], [], false, false⟩ := by
    unfold prov_set_params prov_set_algid
    simp only [hd, hl]
    rfl
  have e3 : prov_cipher_init M ⟨some s1, false, [], [], false, false⟩ (some key) none key.length 0 .none false = (⟨some s2, false, [], [], false, false⟩, true) := by
    unfold prov_cipher_init
    rw [show prov_cipher_set_ctx_params M (⟨some s1, false, [], [], false, false⟩ : EvpCtx σ) .none = (⟨some s1, false, [], [], false, false⟩, true) from rfl]
    dsimp only
    rw [if_pos rfl, if_neg (by omega)]
    unfold evpCipherInit
    rw [show M.init ((⟨some s1, false, [], [], false, false⟩ : EvpCtx σ).data.getD M.fresh) (some key) none false = (s2, true) from hi2]
    rfl
  unfold provReceive
  simp only [e1, e2]
  simp only [e3]
  simp only [Bool.true_eq_false, if_false, if_true]
  rw [if_neg (by decide)]
  exact message_stream h1 chunks hx ⟨rfl, rfl, rfl⟩

/-- **C87** (receiving): parameters and data made by a sender with the engine's methods are understood by a receiver with a context of the provider:
Kuznyechik CTR, any length. -/
theorem C87_received_kuz_ctr (cd : Asn1Codec) (hcd : cd.Sound) (decAny : Bytes → Option AsnType) (hany : DecAny cd decAny) (key iv seed : Bytes)
    (hk : key.length = 32) (hiv : iv.length = 8) (hs : seed.length = 8) (chunks chunks' : List Bytes) (hx : ∀ x ∈ chunks', x.length + 16 ≤ intMax) :
    ∃ der e, kuzSender cd gost_grasshopper_cipher_init_ctr key iv seed = (1, e, some (.seq der)) ∧
      (chunks'.flatten = (feed gost_grasshopper_cipher_do_ctr e chunks).2 →
        provReceive methKuzCtr (kuzAsn cd (zeros 8)) decAny der key chunks' = some chunks.flatten) := by
  obtain ⟨params, e, d, h1, h2, h3⟩ := C55_kuz_ctr cd hcd key iv seed hk hiv hs chunks (chunks'.filter (· ≠ []))
  have hp : some params = some (.seq (cd.enc2015 ((gost_grasshopper_cipher_init_ctr freshKCtx (some key) (some iv) true).oiv.take 8 ++ seed.take 8))) := by
    have h := congrArg (·.2.2) h1
    exact h.symm
  cases hp
  refine ⟨_, e, h1, fun h => ?_⟩
  rw [filter_flatten] at h3
  rw [← h3 h]
  have h2a := congrArg Prod.fst h2
  refine provReceive_stream (M := methKuzCtr) rfl hk rfl (hany.1 _) (s1 := (gost_grasshopper_get_asn1_parameters cd
    (gost_grasshopper_cipher_init_ctr freshKCtx none none false) (zeros 8) (.seq (cd.enc2015 ((gost_grasshopper_cipher_init_ctr freshKCtx (some key) (some iv)
      true).oiv.take 8 ++ seed.take 8)))).2.1) ?_ ?_ chunks' hx
  · show AsnOutcome.ret (gost_grasshopper_get_asn1_parameters cd (gost_grasshopper_cipher_init_ctr freshKCtx none none false) (zeros 8) _).1 _ = _
    rw [show (gost_grasshopper_get_asn1_parameters cd (gost_grasshopper_cipher_init_ctr freshKCtx none none false) (zeros 8) (.seq (cd.enc2015
      ((gost_grasshopper_cipher_init_ctr freshKCtx (some key) (some iv) true).oiv.take 8 ++ seed.take 8)))).1 = 1 from h2a]
    rfl
  · have h2b : gost_grasshopper_cipher_init_ctr (gost_grasshopper_get_asn1_parameters cd (gost_grasshopper_cipher_init_ctr freshKCtx none none false) (zeros 8)
        (.seq (cd.enc2015 ((gost_grasshopper_cipher_init_ctr freshKCtx (some key) (some iv) true).oiv.take 8 ++ seed.take 8)))).2.1 (some key) none false = d :=
      congrArg Prod.snd h2
    exact congrArg (fun x => (x, true)) h2b

/-- **C87** (receiving): GOST 28147-89 CFB, any length, whatever the receiver's default parameter set. -/
theorem C87_received_gost_cfb (cd : Asn1Codec) (hcd : cd.Sound) (decAny : Bytes → Option AsnType) (hany : DecAny cd decAny) (rng rng' : Nat → Fin 8 → W32)
    (env env' : Option (Option ParamNID)) (p p' : ParamNID) (hp : get_encryption_params none env = some p)
    (hp' : get_encryption_params none env' = some p') (key iv : Bytes) (hk : key.length = 32) (hiv : iv.length = 8)
    (chunks chunks' : List Bytes) (hx : ∀ x ∈ chunks', x.length + 16 ≤ intMax) :
    ∃ der e, gost89Sender cd rng env key iv = some (e, .seq der) ∧
      (chunks'.flatten = (feed gost_cipher_do_cfb e chunks).2 →
        provReceive (methGostCfb rng' env') (gost89Asn cd (paramNIDAfterInit false env')) decAny der key chunks' = some chunks.flatten) := by
  obtain ⟨params, e, d, h1, h2, h3⟩ := C55_gost89_cfb cd hcd rng rng' env env' p p' hp hp' key iv hk hiv chunks (chunks'.filter (· ≠ []))
  obtain ⟨der, rfl, hder⟩ : ∃ der, params = .seq der ∧ decAny der = some (.seq der) := by
    unfold gost89Sender at h1
    cases hh : gost_cipher_init_param (freshCtx rng true) (some key) (some iv) true env with
    | none => rw [hh] at h1; cases h1
    | some e' =>
      rw [hh] at h1
      cases h1
      exact ⟨_, rfl, hany.2 _ _⟩
  refine ⟨der, e, h1, fun h => ?_⟩
  rw [filter_flatten] at h3
  rw [← h3 h]
  unfold gost89Receiver at h2
  cases hh : gost_cipher_init_param (freshCtx rng' false) none none false env' with
  | none => rw [hh] at h2; cases h2
  | some e0 =>
    rw [hh] at h2
    have h2 : (match gost89_get_asn1_parameters cd e0 (paramNIDAfterInit false env') (.seq der) with
      | .ret code (e, _) => if code ≤ 0 then none else gost_cipher_init_param e (some key) none false env'
      | .nullDeref => none) = some d := h2
    cases hg : gost89_get_asn1_parameters cd e0 (paramNIDAfterInit false env') (.seq der) with
    | nullDeref => rw [hg] at h2; cases h2
    | ret code st =>
      obtain ⟨e1, nid⟩ := st
      rw [hg] at h2
      simp only at h2
      by_cases hc : code ≤ 0
      · rw [if_pos hc] at h2; cases h2
      · rw [if_neg hc] at h2
        have hcode : code = 1 := by
          unfold gost89_get_asn1_parameters at hg
          simp only at hg
          split at hg
          · cases hg
          · split at hg
            · cases hg; omega
            · split at hg <;> cases hg <;> omega
        subst hcode
        refine provReceive_stream (M := methGostCfb rng' env') rfl hk (s0 := e0) ?_ hder (s1 := e1) ?_ (s2 := d) ?_ chunks' hx
        · show initOr (freshCtx rng' false) false (gost_cipher_init_param (freshCtx rng' false) none none false env') = _
          rw [hh]
          rfl
        · show (match gost89_get_asn1_parameters cd e0 (paramNIDAfterInit false env') (.seq der) with
            | .ret code (e, _) => AsnOutcome.ret code e
            | .nullDeref => .nullDeref) = _
          rw [hg]
        · show initOr e1 false (gost_cipher_init_param e1 (some key) none false env') = _
          rw [h2]
          rfl

/-! ## Sending -/

/-- **C87 (finding)**: what `alg_id_param` is filled with are bytes of the stack, from the variable that holds the pointer on, not the parameters: for every
cipher, context and buffer. Of the parameters only the length is handed over. -/
theorem C87_algid_actual (A : AsnMeth σ) (stack : Nat → Byte) (c : EvpCtx σ) (cap : Option Nat) (o : ParamOut)
    (h : (prov_get_algid A stack c cap).2 = some o) :
    (∀ b, o.bytes = some b → b = (List.range o.len).map stack) ∧ ∃ s der, c.data = some s ∧ (A.store s).2.2 = some (.seq der) ∧ o.len = der.length := by
  unfold prov_get_algid at h
  split at h
  · cases h
  · rename_i s hs
    simp only at h
    split at h
    · cases h
    · split at h
      · rename_i der hder
        unfold setOctetString at h
        simp only at h
        refine ⟨fun b hb => ?_, s, der, hs, hder, ?_⟩
        · split at h
          · cases h; cases hb
          · split at h
            · cases h
            · cases h; cases hb; rfl
        · split at h
          · cases h; rfl
          · split at h
            · cases h
            · cases h; rfl
      · cases h

theorem provSend_kuz (key iv : Bytes) (hk : key.length = 32) (hiv : iv.length = 8) :
    (provSend methKuzCtr key iv).data = some (gost_grasshopper_cipher_init_ctr freshKCtx (some key) (some iv) true) := by
  unfold provSend prov_cipher_init
  rw [show prov_cipher_set_ctx_params methKuzCtr prov_cipher_newctx .none = (EvpCtx.new, true) from rfl]
  dsimp only
  rw [if_pos rfl, if_neg (by rw [hk, hiv]; decide)]
  rfl

theorem algid_kuz (cd : Asn1Codec) (stack : Nat → Byte) (key iv seed : Bytes) (hk : key.length = 32) (hiv : iv.length = 8) (cap : Option Nat) :
    (prov_get_algid (kuzAsn cd seed) stack (provSend methKuzCtr key iv) cap).2 =
      setOctetString cap stack (cd.enc2015 (iv ++ seed.take 8)).length := by
  unfold prov_get_algid
  rw [provSend_kuz key iv hk hiv]
  have ho : (gost_grasshopper_cipher_init_ctr freshKCtx (some key) (some iv) true).oiv = iv ++ zeros 8 := fresh_oiv8 iv hiv
  have hst : (kuzAsn cd seed).store (gost_grasshopper_cipher_init_ctr freshKCtx (some key) (some iv) true) =
      (1, { gost_grasshopper_cipher_init_ctr freshKCtx (some key) (some iv) true with section_size := 256 * 1024 },
        some (.seq (cd.enc2015 (iv ++ seed.take 8)))) := by
    rw [show (kuzAsn cd seed).store (gost_grasshopper_cipher_init_ctr freshKCtx (some key) (some iv) true) =
      gost_grasshopper_set_asn1_parameters cd (gost_grasshopper_cipher_init_ctr freshKCtx (some key) (some iv) true) seed from rfl]
    unfold gost_grasshopper_set_asn1_parameters
    rw [if_pos (show kuzIsCtr (gost_grasshopper_cipher_init_ctr freshKCtx (some key) (some iv) true).type = true from rfl)]
    unfold gost2015_set_asn1_params
    simp only [ho]
    rw [List.take_append_of_le_length (by omega), List.take_of_length_le (by omega)]
  simp only [hst]
  rw [if_neg (by decide)]

/-- **C87 (false)**: a receiver cannot learn the IV of a Kuznyechik CTR context from its `alg_id_param`. DER encodings of strings of the same length have the
same length; then all contexts hand over the same bytes, whatever key, IV and seed, and no reader of these bytes returns the IV. -/
theorem C87_algid_false (cd : Asn1Codec) (hlen : ∀ u v : Bytes, u.length = v.length → (cd.enc2015 u).length = (cd.enc2015 v).length)
    (stack : Nat → Byte) (seed : Bytes) (hs : seed.length = 8) (cap : Nat) (hcap : (cd.enc2015 (zeros 16)).length ≤ cap) :
    (∀ key iv key' iv' : Bytes, key.length = 32 → iv.length = 8 → key'.length = 32 → iv'.length = 8 →
      (prov_get_algid (kuzAsn cd seed) stack (provSend methKuzCtr key iv) (some cap)).2 =
        (prov_get_algid (kuzAsn cd seed) stack (provSend methKuzCtr key' iv') (some cap)).2 ∧
      ∃ o b, (prov_get_algid (kuzAsn cd seed) stack (provSend methKuzCtr key iv) (some cap)).2 = some o ∧ o.bytes = some b) ∧
    ¬ ∃ read : Option ParamOut → Option Bytes, ∀ key iv : Bytes, key.length = 32 → iv.length = 8 →
      read (prov_get_algid (kuzAsn cd seed) stack (provSend methKuzCtr key iv) (some cap)).2 = some iv := by
  have h1 : ∀ iv : Bytes, iv.length = 8 → (cd.enc2015 (iv ++ seed.take 8)).length = (cd.enc2015 (zeros 16)).length := by
    intro iv hiv
    apply hlen
    rw [List.length_append, List.length_take, hiv, hs]
    rfl
  have h2 : ∀ key iv : Bytes, key.length = 32 → iv.length = 8 →
      (prov_get_algid (kuzAsn cd seed) stack (provSend methKuzCtr key iv) (some cap)).2 =
        some ⟨(cd.enc2015 (zeros 16)).length, some ((List.range (cd.enc2015 (zeros 16)).length).map stack)⟩ := by
    intro key iv hk hiv
    rw [algid_kuz cd stack key iv seed hk hiv, h1 iv hiv]
    unfold setOctetString
    simp only
    rw [if_neg (by omega)]
  refine ⟨fun key iv key' iv' hk hiv hk' hiv' => ⟨by rw [h2 key iv hk hiv, h2 key' iv' hk' hiv'], _, _, h2 key iv hk hiv, rfl⟩, ?_⟩
  rintro ⟨read, hread⟩
  have a := hread (zeros 32) (zeros 8) rfl rfl
  have b := hread (zeros 32) (List.replicate 8 1) rfl rfl
  rw [h2 _ _ rfl rfl] at a b
  rw [a] at b
  revert b
  decide

/-- **C87 (finding)**: parameters given together with `alg_id_param` are not used, though the call reports success: the context is the same as without
them. -/
theorem C87_others_ignored (M : EvpMeth σ) (A : AsnMeth σ) (decAny : Bytes → Option AsnType) (der : Bytes) (c : EvpCtx σ) (p : PcParams) :
    prov_set_params M A decAny c (some der) p = prov_set_params M A decAny c (some der) .none := rfl

/-- **C87 (false)**: with Kuznyechik CTR-ACPKM, parameters and a section size `key-mesh` of 64 bytes given in one call: it returns 1, and the section size is
256 KiB. Given alone, the section size is set. -/
theorem C87_others_ignored_false (cd : Asn1Codec) (hcd : cd.Sound) (decAny : Bytes → Option AsnType) (hany : DecAny cd decAny) :
    ∃ (der : Bytes) (c d e : EvpCtx KCtx) (s t : KCtx), c = (prov_cipher_init methKuzCtrAcpkm prov_cipher_newctx none none 0 0 .none false).1 ∧
      prov_set_params methKuzCtrAcpkm (kuzAsn cd (zeros 8)) decAny c (some der) (withMesh 64) = .ret 1 d ∧ d.data = some s ∧ s.section_size = 262144 ∧
      prov_set_params methKuzCtrAcpkm (kuzAsn cd (zeros 8)) decAny c none (withMesh 64) = .ret 1 e ∧ e.data = some t ∧ t.section_size = 64 := by
  obtain ⟨params, h1, h2⟩ := C48_kuznyechik cd hcd (gost_grasshopper_cipher_init_ctracpkm freshKCtx none none false)
    (gost_grasshopper_cipher_init_ctracpkm freshKCtx none none false) rfl rfl rfl ⟨rfl, rfl⟩ (zeros 8) (zeros 8) rfl rfl
  have hp : some params = some (AsnType.seq (cd.enc2015 ((gost_grasshopper_cipher_init_ctracpkm freshKCtx none none false).oiv.take 8 ++ (zeros 8).take 8))) :=
    (congrArg (·.2.2) h1).symm
  cases hp
  generalize hder : cd.enc2015 ((gost_grasshopper_cipher_init_ctracpkm freshKCtx none none false).oiv.take 8 ++ (zeros 8).take 8) = der at h1 h2
  have hd : decAny der = some (.seq der) := by rw [← hder]; exact hany.1 _
  refine ⟨der, ⟨some (gost_grasshopper_cipher_init_ctracpkm freshKCtx none none false), false, [], [], false, false⟩,
    ⟨some (gost_grasshopper_get_asn1_parameters cd (gost_grasshopper_cipher_init_ctracpkm freshKCtx none none false) (zeros 8) (.seq der)).2.1, false, [], [], false,
      false⟩,
    ⟨some (gost_grasshopper_cipher_ctl_key_mesh (gost_grasshopper_cipher_init_ctracpkm freshKCtx none none false) 64).1, false, [], [], false, false⟩,
    _, _, rfl, ?_, rfl, ?_, rfl, rfl, rfl⟩
  · unfold prov_set_params prov_set_algid
    simp only [hd, kuzAsn]
    rw [h2]
    rfl
  · rw [h2]

/-! ## Magma MGM -/

/-- **C55 (false)** for Magma MGM, whose ASN.1 methods are those of Magma CTR: `EVP_CIPHER_param_to_asn1` reports success, and the parameters are the same
whatever key and nonce the context has. -/
theorem C55_magma_mgm_false (cd : Asn1Codec) (ks0 : magmaMgm.KS) (key iv : Option Bytes) (enc : Bool) :
    (magma_mgm_set_asn1 cd (magmaMgmInit ks0 key iv enc)).1 = 1 ∧
    (magma_mgm_set_asn1 cd (magmaMgmInit ks0 key iv enc)).2.2 = .seq (cd.enc2015 (zeros 12)) := ⟨rfl, rfl⟩

/-- **C55 (false)** for Magma MGM, the receiver: loading the parameters reports success, but the context has no nonce afterwards, and every attempt to
process data fails. -/
theorem C55_magma_mgm_receiver_false (cd : Asn1Codec) (ks0 : magmaMgm.KS) (params : AsnType) (key : Bytes) (d : Bytes) (out : Bool) :
    (magma_mgm_get_asn1 cd (magmaMgmInit ks0 none none false) params).1 = 1 ∧
    (cipher_do_mgm (magmaMgmReinit (magma_mgm_get_asn1 cd (magmaMgmInit ks0 none none false) params).2 (some key) none false).mgm out (some d)).2 = ([], -1) := by
  have h0 : ∀ sd, ¬ (gost2015_get_asn1_params cd params 12 4 sd).1 < 0 := by
    intro sd
    unfold gost2015_get_asn1_params
    simp only
    split
    · show ¬ (0 : Int) < 0; decide
    · split
      · show ¬ (0 : Int) < 0; decide
      · split
        · show ¬ (0 : Int) < 0; decide
        · show ¬ (1 : Int) < 0; decide
  unfold magma_mgm_get_asn1
  simp only
  rw [if_neg (h0 _)]
  exact ⟨rfl, rfl⟩

/-- Witness: a sound codec, a decoder, a key, an IV; encodings whose length depends on the length only. -/
example : DerWit.codec.Sound ∧ DecAny DerWit.codec (fun b => some (.seq b)) ∧
    (∀ u v : Bytes, u.length = v.length → (DerWit.codec.enc2015 u).length = (DerWit.codec.enc2015 v).length) ∧
    (DerWit.codec.enc2015 (zeros 16)).length ≤ 20 ∧ get_encryption_params none none = some .tc26Z :=
  ⟨DerWit.codec_sound, ⟨fun _ => rfl, fun _ _ => rfl⟩, fun u v h => by simp only [DerWit.codec, List.length_cons, h], by decide, rfl⟩

end Gost
