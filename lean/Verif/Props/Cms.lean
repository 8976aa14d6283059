import Verif.Props.CipherAsn1

/-!
# C55: handing data over with algorithm parameters (the CMS flow)

The flow is that of OpenSSL's CMS code.  The sender initialises a context with key and IV, stores
the parameters with `set_asn1`, then encrypts.  The receiver initialises a context without a key,
loads the parameters, initialises again with the key (no IV), then decrypts.
-/

namespace Gost
open Spec

/-! ## The flows -/

/-- An init callback of a Kuznyechik cipher. -/
abbrev KInit := KCtx → Option Bytes → Option Bytes → Bool → KCtx

/-- The Kuznyechik sender: the context after the parameters were stored, and the parameters. -/
def kuzSender (cd : Asn1Codec) (init : KInit) (key iv seed : Bytes) : Int × KCtx × Option AsnType :=
  gost_grasshopper_set_asn1_parameters cd (init freshKCtx (some key) (some iv) true) seed

/-- The Kuznyechik receiver: result of loading the parameters, and the context ready to decrypt. -/
def kuzReceiver (cd : Asn1Codec) (init : KInit) (params : AsnType) (key : Bytes) : Int × KCtx :=
  let r := gost_grasshopper_get_asn1_parameters cd (init freshKCtx none none false) (zeros 8) params
  (r.1, init r.2.1 (some key) none false)

/-- The Magma sender. -/
def magmaSender (cd : Asn1Codec) (rng : Nat → Fin 8 → W32) (acpkm : Bool) (key iv seed : Bytes) :
    Int × CipherCtx × AsnType :=
  magma_set_asn1_parameters cd (magma_cipher_init (freshCtx rng true) (some key) (some iv) true 4 acpkm) seed

/-- The Magma receiver. -/
def magmaReceiver (cd : Asn1Codec) (rng : Nat → Fin 8 → W32) (acpkm : Bool) (params : AsnType) (key : Bytes) :
    Int × CipherCtx :=
  let r := magma_get_asn1_parameters cd (magma_cipher_init (freshCtx rng false) none none false 4 acpkm) (zeros 8) params
  (r.1, magma_cipher_init r.2.1 (some key) none false 4 acpkm)

/-- The GOST 28147-89 CFB/CBC sender; `env` is its `CRYPT_PARAMS` setting. -/
def gost89Sender (cd : Asn1Codec) (rng : Nat → Fin 8 → W32) (env : Option (Option ParamNID)) (key iv : Bytes) :
    Option (CipherCtx × AsnType) := do
  let e ← gost_cipher_init_param (freshCtx rng true) (some key) (some iv) true env
  some (e, (gost89_set_asn1_parameters cd e (paramNIDAfterInit false env)).2)

/-- The GOST 28147-89 CFB/CBC receiver with its own `CRYPT_PARAMS` setting; `none` if a call fails. -/
def gost89Receiver (cd : Asn1Codec) (rng : Nat → Fin 8 → W32) (env : Option (Option ParamNID)) (params : AsnType)
    (key : Bytes) : Option CipherCtx := do
  let e ← gost_cipher_init_param (freshCtx rng false) none none false env
  match gost89_get_asn1_parameters cd e (paramNIDAfterInit false env) params with
  | .ret code (e, _) => if code ≤ 0 then none else gost_cipher_init_param e (some key) none false env
  | .nullDeref => none

/-! ## Two keystreams -/

theorem xorStream_congr (bl : Nat) (g h : Nat → Bytes) (d : Bytes)
    (hgh : ∀ i < d.length, g (i / bl) = h (i / bl)) : xorStream bl g d = xorStream bl h d := by
  unfold xorStream
  apply List.ext_getElem
  · simp
  · intro i h1 h2
    have hi : i < d.length := by simpa using h1
    simp [hgh i hi]

theorem xorStream_two (bl : Nat) (g h : Nat → Bytes) (d : Bytes) :
    xorStream bl g (xorStream bl h d) = d ↔
      ∀ i < d.length, (g (i / bl)).getD (i % bl) 0 = (h (i / bl)).getD (i % bl) 0 := by
  constructor
  · intro hh i hi
    have := congrArg (fun l => l[i]?) hh
    simp only [xorStream, List.getElem?_mapIdx, List.getElem?_eq_getElem hi, Option.map_some, Option.some.injEq] at this
    generalize (g (i / bl)).getD (i % bl) 0 = a at *
    generalize (h (i / bl)).getD (i % bl) 0 = b at *
    generalize d[i] = x at *
    have h2 : x ^^^ (x ^^^ b ^^^ a) = x ^^^ x := by rw [this]
    rw [BitVec.xor_assoc, ← BitVec.xor_assoc, BitVec.xor_self, BitVec.zero_xor] at h2
    have h3 : b ^^^ (b ^^^ a) = b ^^^ 0#8 := by rw [h2]
    rw [← BitVec.xor_assoc, BitVec.xor_self, BitVec.zero_xor] at h3
    simpa using h3
  · intro hh
    apply List.ext_getElem
    · simp [xorStream]
    · intro i h1 h2
      simp only [xorStream, List.getElem_mapIdx]
      rw [hh i h2, BitVec.xor_assoc, BitVec.xor_self, BitVec.xor_zero]

/-- Two section lengths give the same gamma inside the first section of both. -/
theorem ctrAcpkmGamma_first (bl : Nat) (E : Bytes → Bytes → Bytes) (ac : Bytes → Bytes) (sec : Nat) (key iv : Bytes)
    (j : Nat) (h : sec = 0 ∨ j * bl < sec) : ctrAcpkmGamma bl E ac sec key iv j = E key (ctrBlock bl iv j) := by
  unfold ctrAcpkmGamma
  rcases h with h | h
  · simp [h]
  · simp [Nat.div_eq_of_lt h, iter]

/-! ## Kuznyechik -/

theorem kuzSender_eq (cd : Asn1Codec) (hcd : cd.Sound) (init : KInit) (key iv seed : Bytes) (hiv : iv.length = 8)
    (hs : seed.length = 8) (ht : kuzIsCtr (init freshKCtx (some key) (some iv) true).type = true)
    (ht' : kuzIsCtr (init freshKCtx none none false).type = true)
    (ho : (init freshKCtx (some key) (some iv) true).oiv = iv ++ zeros 8)
    (hl : (init freshKCtx none none false).iv.length = 16 ∧ (init freshKCtx none none false).oiv.length = 16) :
    ∃ params, kuzSender cd init key iv seed =
      (1, { init freshKCtx (some key) (some iv) true with section_size := 262144 }, some params) ∧
      kuzReceiver cd init params key =
        (1, init { init freshKCtx none none false with iv := iv ++ zeros 8, oiv := iv ++ zeros 8, section_size := 262144 }
          (some key) none false) := by
  obtain ⟨params, h1, h2⟩ := C48_kuznyechik cd hcd (init freshKCtx (some key) (some iv) true)
    (init freshKCtx none none false) ht ht' (by rw [ho]; simp [hiv, zeros]) hl seed (zeros 8) hs rfl
  refine ⟨params, h1, ?_⟩
  rw [kuzReceiver, h2, ho, List.take_append_of_le_length (by omega), List.take_of_length_le (by omega)]

theorem fresh_oiv8 (iv : Bytes) (hiv : iv.length = 8) : memcpyTo (zeros 16) iv 8 = iv ++ zeros 8 := by
  rw [memcpyTo, List.take_of_length_le (by omega)]
  rfl

theorem fresh_iv8 (iv : Bytes) (hiv : iv.length = 8) : memcpyTo (iv ++ zeros 8) (iv ++ zeros 8) 8 = iv ++ zeros 8 := by
  rw [memcpyTo, List.take_append_of_le_length (by omega), List.take_of_length_le (by omega), List.drop_append,
    List.drop_eq_nil_of_le (by omega), hiv]
  rfl

/-- **C55** Kuznyechik CTR: the receiver recovers the data, whatever their length and chunking. -/
theorem C55_kuz_ctr (cd : Asn1Codec) (hcd : cd.Sound) (key iv seed : Bytes) (hk : key.length = 32)
    (hiv : iv.length = 8) (hs : seed.length = 8) (chunks chunks' : List Bytes) :
    ∃ params e d, kuzSender cd gost_grasshopper_cipher_init_ctr key iv seed = (1, e, some params) ∧
      kuzReceiver cd gost_grasshopper_cipher_init_ctr params key = (1, d) ∧
      (chunks'.flatten = (feed gost_grasshopper_cipher_do_ctr e chunks).2 →
        (feed gost_grasshopper_cipher_do_ctr d chunks').2 = chunks.flatten) := by
  obtain ⟨params, h1, h2⟩ := kuzSender_eq cd hcd gost_grasshopper_cipher_init_ctr key iv seed hiv hs rfl rfl
    (fresh_oiv8 iv hiv) ⟨rfl, rfl⟩
  refine ⟨params, _, _, h1, h2, fun h => ?_⟩
  obtain ⟨f1, f2, f3, f4⟩ := kCtrSession_facts true key iv hk hiv
  have hS : ∀ cs, (feed gost_grasshopper_cipher_do_ctr
      { gost_grasshopper_cipher_init_ctr freshKCtx (some key) (some iv) true with section_size := 262144 } cs).2 =
      xorStream 16 (ctrGamma 16 (EKuz key) (iv ++ zeros 8)) cs.flatten := by
    intro cs
    have hf : KctrInv ({ gost_grasshopper_cipher_init_ctr freshKCtx (some key) (some iv) true with section_size := 262144 } : KCtx).key
      { gost_grasshopper_cipher_init_ctr freshKCtx (some key) (some iv) true with section_size := 262144 } :=
      ⟨f1.facts, rfl, f1.buf, f1.num⟩
    rw [kctr_history _ hf f2]
    show xorStream 16 (ctrGamma 16 (EKuz (kCtrSession true key iv).key) (kCtrSession true key iv).iv) _ = _
    rw [f3, f4]
  have hR : ∀ cs, (feed gost_grasshopper_cipher_do_ctr
      (gost_grasshopper_cipher_init_ctr { gost_grasshopper_cipher_init_ctr freshKCtx none none false with
        iv := iv ++ zeros 8, oiv := iv ++ zeros 8, section_size := 262144 } (some key) none false) cs).2 =
      xorStream 16 (ctrGamma 16 (EKuz key) (iv ++ zeros 8)) cs.flatten := by
    intro cs
    have hi : memcpyTo (iv ++ zeros 8) (iv ++ zeros 8) 8 = iv ++ zeros 8 := fresh_iv8 iv hiv
    have hfacts : KctrInv key (gost_grasshopper_cipher_init_ctr { gost_grasshopper_cipher_init_ctr freshKCtx none none false with
        iv := iv ++ zeros 8, oiv := iv ++ zeros 8, section_size := 262144 } (some key) none false) :=
      ⟨⟨rfl, rfl, copyN_length _ _, (congrArg List.length hi).trans (by simp [hiv, zeros])⟩, copyN_self hk, rfl,
        (by decide : (0:Nat) < 16)⟩
    rw [kctr_history _ (by rw [hfacts.key]; exact hfacts) rfl, hfacts.key]
    congr 2
  rw [hR, h, hS, xorStream_twice]

/-- The contexts of sender and receiver for Kuznyechik CTR-ACPKM: the sender has the 256 KiB section of
the parameters, the receiver the default 4 KiB section (the second initialisation resets it). -/
theorem kuzAcpkm_flow (cd : Asn1Codec) (hcd : cd.Sound) (key iv seed : Bytes) (hk : key.length = 32)
    (hiv : iv.length = 8) (hs : seed.length = 8) :
    ∃ params e d, kuzSender cd gost_grasshopper_cipher_init_ctracpkm key iv seed = (1, e, some params) ∧
      kuzReceiver cd gost_grasshopper_cipher_init_ctracpkm params key = (1, d) ∧
      (∀ cs, (feed gost_grasshopper_cipher_do_ctracpkm e cs).2 =
        xorStream 16 (ctrAcpkmGamma 16 EKuz (Spec.acpkm 16 EKuz) 262144 key (iv ++ zeros 8)) cs.flatten) ∧
      (∀ cs, (feed gost_grasshopper_cipher_do_ctracpkm d cs).2 =
        xorStream 16 (ctrAcpkmGamma 16 EKuz (Spec.acpkm 16 EKuz) 4096 key (iv ++ zeros 8)) cs.flatten) := by
  obtain ⟨params, h1, h2⟩ := kuzSender_eq cd hcd gost_grasshopper_cipher_init_ctracpkm key iv seed hiv hs rfl rfl
    (fresh_oiv8 iv hiv) ⟨rfl, rfl⟩
  refine ⟨params, _, _, h1, h2, fun cs => ?_, fun cs => ?_⟩
  · obtain ⟨f1, f2, f3, f4, _⟩ := kAcpkmSession_facts true key iv hk hiv
    have hf : KactrInv 262144 { gost_grasshopper_cipher_init_ctracpkm freshKCtx (some key) (some iv) true with
        section_size := 262144 } := ⟨f1.box, rfl, f1.buf, f1.num, fun _ => Nat.le_trans (Nat.le_of_eq f2) (Nat.zero_le _)⟩
    have hlen : (kAcpkmSession true key iv).iv.length = 16 := by rw [f4]; simp [hiv, zeros]
    rw [kactr_history 262144 (by decide) _ hf f2 hlen]
    show xorStream 16 (ctrAcpkmGamma 16 EKuz (Spec.acpkm 16 EKuz) 262144 (kAcpkmSession true key iv).key
      (kAcpkmSession true key iv).iv) _ = _
    rw [f3, f4]
  · have hi : memcpyTo (iv ++ zeros 8) (iv ++ zeros 8) 8 = iv ++ zeros 8 := fresh_iv8 iv hiv
    have hlen : (memcpyTo (iv ++ zeros 8) (iv ++ zeros 8) 8).length = 16 := (congrArg List.length hi).trans (by simp [hiv, zeros])
    have hf : KactrInv 4096 (gost_grasshopper_cipher_init_ctracpkm
        { gost_grasshopper_cipher_init_ctracpkm freshKCtx none none false with
          iv := iv ++ zeros 8, oiv := iv ++ zeros 8, section_size := 262144 } (some key) none false) :=
      ⟨⟨rfl, rfl, copyN_length _ _, hlen⟩, rfl, rfl, (by decide : (0:Nat) < 2^32), fun _ => Nat.zero_le _⟩
    rw [kactr_history 4096 (by decide) _ hf rfl hlen]
    show xorStream 16 (ctrAcpkmGamma 16 EKuz (Spec.acpkm 16 EKuz) 4096 (copyN 32 key)
      (memcpyTo (iv ++ zeros 8) (iv ++ zeros 8) 8)) _ = _
    rw [hi, copyN_self hk]

/-- **C55** Kuznyechik CTR-ACPKM: the receiver recovers messages of up to 4096 bytes.  (Beyond that the
two sides change keys at different places: `C55_kuz_acpkm_actual`.) -/
theorem C55_kuz_acpkm_partial (cd : Asn1Codec) (hcd : cd.Sound) (key iv seed : Bytes) (hk : key.length = 32)
    (hiv : iv.length = 8) (hs : seed.length = 8) (chunks chunks' : List Bytes) (hlen : chunks.flatten.length ≤ 4096) :
    ∃ params e d, kuzSender cd gost_grasshopper_cipher_init_ctracpkm key iv seed = (1, e, some params) ∧
      kuzReceiver cd gost_grasshopper_cipher_init_ctracpkm params key = (1, d) ∧
      (chunks'.flatten = (feed gost_grasshopper_cipher_do_ctracpkm e chunks).2 →
        (feed gost_grasshopper_cipher_do_ctracpkm d chunks').2 = chunks.flatten) := by
  obtain ⟨params, e, d, h1, h2, hS, hR⟩ := kuzAcpkm_flow cd hcd key iv seed hk hiv hs
  refine ⟨params, e, d, h1, h2, fun h => ?_⟩
  rw [hR, h, hS, xorStream_two]
  intro i hi
  have hj : i / 16 * 16 ≤ i := Nat.div_mul_le_self i 16
  rw [ctrAcpkmGamma_first _ _ _ _ _ _ _ (Or.inr (by omega)), ctrAcpkmGamma_first _ _ _ _ _ _ _ (Or.inr (by omega))]

/-- **C55** Kuznyechik CTR-ACPKM, any length: the receiver recovers the data exactly when the gammas with
sections of 256 KiB and of 4 KiB agree on the whole message. -/
theorem C55_kuz_acpkm_actual (cd : Asn1Codec) (hcd : cd.Sound) (key iv seed : Bytes) (hk : key.length = 32)
    (hiv : iv.length = 8) (hs : seed.length = 8) (chunks chunks' : List Bytes) :
    ∃ params e d, kuzSender cd gost_grasshopper_cipher_init_ctracpkm key iv seed = (1, e, some params) ∧
      kuzReceiver cd gost_grasshopper_cipher_init_ctracpkm params key = (1, d) ∧
      (chunks'.flatten = (feed gost_grasshopper_cipher_do_ctracpkm e chunks).2 →
        ((feed gost_grasshopper_cipher_do_ctracpkm d chunks').2 = chunks.flatten ↔
          ∀ i < chunks.flatten.length,
            (EKuz (iter (Spec.acpkm 16 EKuz) (i / 16 * 16 / 4096) key) (ctrBlock 16 (iv ++ zeros 8) (i / 16))).getD (i % 16) 0 =
            (EKuz (iter (Spec.acpkm 16 EKuz) (i / 16 * 16 / 262144) key) (ctrBlock 16 (iv ++ zeros 8) (i / 16))).getD
              (i % 16) 0)) := by
  obtain ⟨params, e, d, h1, h2, hS, hR⟩ := kuzAcpkm_flow cd hcd key iv seed hk hiv hs
  refine ⟨params, e, d, h1, h2, fun h => ?_⟩
  rw [hR, h, hS, xorStream_two]
  rfl

/-! ## Magma -/

theorem fresh_oiv4 (iv : Bytes) (hiv : iv.length = 4) : memcpy (zeros 8) iv 4 = iv ++ zeros 4 := by
  rw [memcpy, List.take_of_length_le (by omega)]
  rfl

theorem fresh_iv4 (iv : Bytes) (hiv : iv.length = 4) : memcpy (iv ++ zeros 4) (iv ++ zeros 4) 4 = iv ++ zeros 4 := by
  rw [memcpy, List.take_append_of_le_length (by omega), List.take_of_length_le (by omega), List.drop_append,
    List.drop_eq_nil_of_le (by omega), hiv]
  rfl

/-- The contexts of sender and receiver for Magma CTR and CTR-ACPKM: the sender has the 8 KiB section of
the parameters even in plain CTR, the receiver the default (no sections, or 1 KiB). -/
theorem magma_flow (cd : Asn1Codec) (hcd : cd.Sound) (rng rng' : Nat → Fin 8 → W32) (acpkm : Bool)
    (key iv seed : Bytes) (hk : key.length = 32) (hiv : iv.length = 4) (hs : seed.length = 8) :
    ∃ params e d, magmaSender cd rng acpkm key iv seed = (1, e, params) ∧
      magmaReceiver cd rng' acpkm params key = (1, d) ∧
      (∀ cs, (feed magma_cipher_do_ctr e cs).2 =
        xorStream 8 (ctrAcpkmGamma 8 (EMagma magmaBox) (Spec.acpkm 8 (EMagma magmaBox)) 8192 key (iv ++ zeros 4)) cs.flatten) ∧
      (∀ cs, (feed magma_cipher_do_ctr d cs).2 =
        xorStream 8 (ctrAcpkmGamma 8 (EMagma magmaBox) (Spec.acpkm 8 (EMagma magmaBox)) (if acpkm then 1024 else 0) key
          (iv ++ zeros 4)) cs.flatten) := by
  have ho : (magma_cipher_init (freshCtx rng true) (some key) (some iv) true 4 acpkm).oiv = iv ++ zeros 4 :=
    fresh_oiv4 iv hiv
  obtain ⟨params, h1, h2⟩ := C48_magma cd hcd
    (magma_cipher_init (freshCtx rng true) (some key) (some iv) true 4 acpkm)
    (magma_cipher_init (freshCtx rng' false) none none false 4 acpkm)
    (by rw [ho]; simp [hiv, zeros]) ⟨rfl, rfl⟩ seed (zeros 8) hs rfl
  have h3 : magmaReceiver cd rng' acpkm params key = (1, magma_cipher_init
      { magma_cipher_init (freshCtx rng' false) none none false 4 acpkm with
        iv := iv ++ zeros 4, oiv := iv ++ zeros 4, key_meshing := 8192 } (some key) none false 4 acpkm) := by
    rw [magmaReceiver, h2, ho, List.take_append_of_le_length (by omega), List.take_of_length_le (by omega)]
  refine ⟨params, _, _, h1, h3, fun cs => ?_, fun cs => ?_⟩
  · obtain ⟨f1, f2, _, f3, f4⟩ := magmaSession_ctr_facts rng true acpkm key iv hk hiv
    have hf : MctrInv magmaBox 8192 { magma_cipher_init (freshCtx rng true) (some key) (some iv) true 4 acpkm with
        key_meshing := 8192 } := ⟨f1.box, rfl, f1.buf, f1.num, fun _ => Nat.le_trans (Nat.le_of_eq f2) (Nat.zero_le _)⟩
    have hlen : (magmaSession rng true 4 acpkm key iv).iv.length = 8 := by rw [f4]; simp [hiv, zeros]
    rw [mctr_history magmaBox 8192 (by decide) _ hf f2 hlen]
    show xorStream 8 (ctrAcpkmGamma 8 (EMagma magmaBox) (Spec.acpkm 8 (EMagma magmaBox)) 8192
      (magma_get_key (magmaSession rng true 4 acpkm key iv).cctx) (magmaSession rng true 4 acpkm key iv).iv) _ = _
    rw [f3, f4]
  · have hi : memcpy (iv ++ zeros 4) (iv ++ zeros 4) 4 = iv ++ zeros 4 := fresh_iv4 iv hiv
    have hlen : (memcpy (iv ++ zeros 4) (iv ++ zeros 4) 4).length = 8 := (congrArg List.length hi).trans (by simp [hiv, zeros])
    have hf : MctrInv magmaBox (if acpkm then 1024 else 0) (magma_cipher_init
        { magma_cipher_init (freshCtx rng' false) none none false 4 acpkm with
          iv := iv ++ zeros 4, oiv := iv ++ zeros 4, key_meshing := 8192 } (some key) none false 4 acpkm) :=
      ⟨rfl, rfl, rfl, (by decide : (0:Nat) < 2^32), fun _ => Nat.zero_le _⟩
    rw [mctr_history magmaBox _ (by cases acpkm <;> decide) _ hf rfl hlen]
    have hkey : ∀ c : Ctx, magma_get_key (magma_key c key) = key := fun c => magma_get_key_set c _ hk
    show xorStream 8 (ctrAcpkmGamma 8 (EMagma magmaBox) (Spec.acpkm 8 (EMagma magmaBox)) _
      (magma_get_key (magma_key _ key)) (memcpy (iv ++ zeros 4) (iv ++ zeros 4) 4)) _ = _
    rw [hi, hkey]
    cases acpkm <;> rfl

/-- **C55** Magma: the receiver recovers messages of up to 1024 bytes (CTR-ACPKM) or 8192 bytes (plain CTR). -/
theorem C55_magma_partial (cd : Asn1Codec) (hcd : cd.Sound) (rng rng' : Nat → Fin 8 → W32) (acpkm : Bool)
    (key iv seed : Bytes) (hk : key.length = 32) (hiv : iv.length = 4) (hs : seed.length = 8)
    (chunks chunks' : List Bytes) (hlen : chunks.flatten.length ≤ if acpkm then 1024 else 8192) :
    ∃ params e d, magmaSender cd rng acpkm key iv seed = (1, e, params) ∧
      magmaReceiver cd rng' acpkm params key = (1, d) ∧
      (chunks'.flatten = (feed magma_cipher_do_ctr e chunks).2 →
        (feed magma_cipher_do_ctr d chunks').2 = chunks.flatten) := by
  obtain ⟨params, e, d, h1, h2, hS, hR⟩ := magma_flow cd hcd rng rng' acpkm key iv seed hk hiv hs
  refine ⟨params, e, d, h1, h2, fun h => ?_⟩
  rw [hR, h, hS, xorStream_two]
  intro i hi
  have hj : i / 8 * 8 ≤ i := Nat.div_mul_le_self i 8
  have hle : chunks.flatten.length ≤ 8192 := by
    refine Nat.le_trans hlen ?_
    cases acpkm <;> decide
  rw [ctrAcpkmGamma_first 8 _ _ 8192 _ _ _ (Or.inr (by omega))]
  rw [ctrAcpkmGamma_first]
  cases acpkm
  · exact Or.inl rfl
  · refine Or.inr ?_
    have hlen' : chunks.flatten.length ≤ 1024 := hlen
    show _ < 1024
    omega

/-- The first gamma byte after the first section, with and without the key change. -/
theorem magma_gamma_differs :
    (EMagma magmaBox (Spec.acpkm 8 (EMagma magmaBox) sampleKey) (ctrBlock 8 (zeros 8) 128)).getD 0 0 ≠
      (EMagma magmaBox sampleKey (ctrBlock 8 (zeros 8) 128)).getD 0 0 ∧
    (EMagma magmaBox (Spec.acpkm 8 (EMagma magmaBox) sampleKey) (ctrBlock 8 (zeros 8) 1024)).getD 0 0 ≠
      (EMagma magmaBox sampleKey (ctrBlock 8 (zeros 8) 1024)).getD 0 0 := by
  decide +kernel

/-- **C55** is false for Magma CTR-ACPKM with 1025 bytes and for Magma CTR with 8193 bytes: for a
sample key and zero IV the receiver, given exactly the ciphertext, does not recover the data. -/
theorem C55_magma_false (cd : Asn1Codec) (hcd : cd.Sound) (rng rng' : Nat → Fin 8 → W32) (acpkm : Bool)
    (seed : Bytes) (hs : seed.length = 8) (msg : Bytes) (hm : msg.length = if acpkm then 1025 else 8193) :
    ∃ params e d, magmaSender cd rng acpkm sampleKey (zeros 4) seed = (1, e, params) ∧
      magmaReceiver cd rng' acpkm params sampleKey = (1, d) ∧
      (feed magma_cipher_do_ctr d [(feed magma_cipher_do_ctr e [msg]).2]).2 ≠ msg := by
  obtain ⟨params, e, d, h1, h2, hS, hR⟩ := magma_flow cd hcd rng rng' acpkm sampleKey (zeros 4) seed rfl rfl hs
  refine ⟨params, e, d, h1, h2, ?_⟩
  rw [hR, hS]
  simp only [List.flatten_cons, List.flatten_nil, List.append_nil]
  rw [Ne, xorStream_two]
  intro hall
  obtain ⟨g1, g2⟩ := magma_gamma_differs
  cases acpkm
  · exact g2 (hall 8192 (by simp [hm])).symm
  · exact g1 (hall 1024 (by simp [hm]))

/-! ## GOST 28147-89 -/

/-- The result of `gost_cipher_init_param` on a fresh context with parameter set `p`. -/
def initSome (rng : Nat → Fin 8 → W32) (enc : Bool) (p : ParamNID) (key iv : Option Bytes) : CipherCtx :=
  let e := { gost_cipher_set_param { freshCtx rng enc with encrypting := enc } p with appData := true }
  let e := match key with
    | some k => { e with cctx := gost_key e.cctx k }
    | none => e
  setIv e iv 8

/-- What the sender and the receiver hold: the S-box set chosen by the sender's setting, the key and the
IV, whatever the receiver's own setting. -/
theorem gost89_flow (cd : Asn1Codec) (hcd : cd.Sound) (rng rng' : Nat → Fin 8 → W32)
    (env env' : Option (Option ParamNID)) (p p' : ParamNID) (hp : get_encryption_params none env = some p)
    (hp' : get_encryption_params none env' = some p') (key iv : Bytes) (hk : key.length = 32) (hiv : iv.length = 8) :
    ∃ params e d, gost89Sender cd rng env key iv = some (e, params) ∧
      gost89Receiver cd rng' env' params key = some d ∧
      (CfbInv (boxOf p) true true e ∧ e.num = 0 ∧ e.count = 0 ∧ gost_get_key e.cctx = key ∧ e.iv = iv) ∧
      (CfbInv (boxOf p) true false d ∧ d.num = 0 ∧ d.count = 0 ∧ gost_get_key d.cctx = key ∧ d.iv = iv) := by
  have hcopy : ∀ b : Bytes, b.length = 8 → memcpy b iv 8 = iv := by
    intro b hb
    have hd : b.drop 8 = [] := List.drop_eq_nil_of_le (by omega)
    rw [memcpy, List.take_of_length_le (by omega), hd, List.append_nil]
  -- the sender
  obtain ⟨e, he, hebox, hekm, heenc, hebuf, hest, henum, hecnt, hekey, heiv⟩ :
      ∃ e, gost_cipher_init_param (freshCtx rng true) (some key) (some iv) true env = some e ∧
        e.cctx.box = boxOf p ∧ e.key_meshing = 1 ∧ e.encrypting = true ∧ e.buf.length = 8 ∧ e.stash.length = 8 ∧
        e.num = 0 ∧ e.count = 0 ∧ gost_get_key e.cctx = key ∧ e.iv = iv := by
    have hi : gost_cipher_init_param (freshCtx rng true) (some key) (some iv) true env =
        some (initSome rng true p (some key) (some iv)) := by
      simp only [gost_cipher_init_param, hp]
      rfl
    refine ⟨_, hi, rfl, ?_, rfl, rfl, rfl, rfl, rfl, ?_, ?_⟩
    · show (gost_cipher_list p).2 = 1
      cases p <;> rfl
    · show gost_get_key (gost_key _ key) = key
      exact gost_get_key_set _ _ hk
    · show memcpy (zeros 8) (memcpy (zeros 8) iv 8) 8 = iv
      rw [hcopy (zeros 8) (by simp [zeros]), hcopy (zeros 8) (by simp [zeros])]
  -- the receiver's first initialisation
  obtain ⟨r, hr, hrapp, hrenc, hrbuf, hrst, hrnum, hriv, hroiv⟩ :
      ∃ r, gost_cipher_init_param (freshCtx rng' false) none none false env' = some r ∧ r.appData = true ∧
        r.encrypting = false ∧ r.buf.length = 8 ∧ r.stash.length = 8 ∧ r.num = 0 ∧ r.iv.length = 8 ∧ r.oiv.length = 8 := by
    have hi : gost_cipher_init_param (freshCtx rng' false) none none false env' =
        some (initSome rng' false p' none none) := by
      simp only [gost_cipher_init_param, hp']
      rfl
    exact ⟨_, hi, rfl, rfl, rfl, rfl, rfl, rfl, rfl⟩
  obtain ⟨params, h1, h2⟩ := C48_gost89 cd hcd e r p (paramNIDAfterInit false env') (by rw [heiv]; exact hiv) hroiv
  have hnid : paramNIDAfterInit false env = some p := hp
  refine ⟨params, e, setIv { gost_cipher_set_param r p with
      oiv := e.iv
      encrypting := false
      cctx := gost_key (gost_cipher_set_param r p).cctx key } none 8, ?_, ?_, ?_, ?_⟩
  · simp only [gost89Sender, he, hnid]
    show some (e, (gost89_set_asn1_parameters cd e (some p)).2) = _
    rw [h1]
  · simp only [gost89Receiver, hr]
    show (match gost89_get_asn1_parameters cd r (paramNIDAfterInit false env') params with
      | .ret code (e, _) => if code ≤ 0 then none else gost_cipher_init_param e (some key) none false env'
      | .nullDeref => none) = _
    rw [h2]
    have happ : (gost_cipher_set_param r p).appData = true := by
      unfold gost_cipher_set_param
      exact hrapp
    show (if (1:Int) ≤ 0 then none else gost_cipher_init_param
      { gost_cipher_set_param r p with oiv := e.iv } (some key) none false env') = _
    rw [if_neg (by decide)]
    simp only [gost_cipher_init_param, happ, if_true]
    unfold gost_cipher_set_param
    rfl
  · exact ⟨⟨hebox, by rw [hekm]; decide, heenc, hebuf, hest, by rw [henum]; decide⟩, henum, hecnt, hekey, heiv⟩
  · simp only [gost_cipher_set_param, setIv]
    refine ⟨⟨rfl, ?_, rfl, hrbuf, hrst, ?_⟩, hrnum, trivial, ?_, ?_⟩
    · show (gost_cipher_list p).2 ≠ 0 ↔ _
      cases p <;> decide
    · show r.num < 8
      rw [hrnum]; decide
    · show gost_get_key (gost_key _ key) = key
      exact gost_get_key_set _ _ hk
    · show memcpy r.iv e.iv 8 = iv
      rw [heiv]
      exact hcopy _ hriv

/-- **C55** GOST 28147-89 CFB: the receiver recovers data of any length and chunking, with the S-box set
the sender used, whatever the receiver's own default. -/
theorem C55_gost89_cfb (cd : Asn1Codec) (hcd : cd.Sound) (rng rng' : Nat → Fin 8 → W32)
    (env env' : Option (Option ParamNID)) (p p' : ParamNID) (hp : get_encryption_params none env = some p)
    (hp' : get_encryption_params none env' = some p') (key iv : Bytes) (hk : key.length = 32) (hiv : iv.length = 8)
    (chunks chunks' : List Bytes) :
    ∃ params e d, gost89Sender cd rng env key iv = some (e, params) ∧
      gost89Receiver cd rng' env' params key = some d ∧
      (chunks'.flatten = (feed gost_cipher_do_cfb e chunks).2 →
        (feed gost_cipher_do_cfb d chunks').2 = chunks.flatten) := by
  obtain ⟨params, e, d, h1, h2, ⟨e1, e2, e3, e4, e5⟩, d1, d2, d3, d4, d5⟩ :=
    gost89_flow cd hcd rng rng' env env' p p' hp hp' key iv hk hiv
  refine ⟨params, e, d, h1, h2, fun h => ?_⟩
  have he := cfb_history (boxOf p) true true e e1 e2 e3 chunks
  have hd := cfb_history (boxOf p) true false d d1 d2 d3 chunks'
  have hinv := runM_inverse (cfbStep (boxOf p) true true) (cfbStep (boxOf p) true false)
    (fun a x => cfb_inverse _ _ a x) ⟨key, iv, [], 0⟩ chunks.flatten
  rw [e4, e5] at he
  rw [d4, d5, h] at hd
  rw [he] at hinv
  simp only at hinv
  rw [hd] at hinv
  exact (Prod.mk.inj hinv).2

/-- **C55** GOST 28147-89 CBC, whole-block updates. -/
theorem C55_gost89_cbc (cd : Asn1Codec) (hcd : cd.Sound) (rng rng' : Nat → Fin 8 → W32)
    (env env' : Option (Option ParamNID)) (p p' : ParamNID) (hp : get_encryption_params none env = some p)
    (hp' : get_encryption_params none env' = some p') (key iv : Bytes) (hk : key.length = 32) (hiv : iv.length = 8)
    (chunks chunks' : List Bytes) (hc : ∀ c ∈ chunks, 8 ∣ c.length) (hc' : ∀ c ∈ chunks', 8 ∣ c.length) :
    ∃ params e d, gost89Sender cd rng env key iv = some (e, params) ∧
      gost89Receiver cd rng' env' params key = some d ∧
      (chunks'.flatten = (feed gost_cipher_do_cbc e chunks).2 →
        (feed gost_cipher_do_cbc d chunks').2 = chunks.flatten) := by
  obtain ⟨params, e, d, h1, h2, ⟨e1, e2, e3, e4, e5⟩, d1, d2, d3, d4, d5⟩ :=
    gost89_flow cd hcd rng rng' env env' p p' hp hp' key iv hk hiv
  refine ⟨params, e, d, h1, h2, fun h => ?_⟩
  have hdiv : 8 ∣ chunks.flatten.length := dvd_flatten_length 8 chunks hc
  rw [cbc_history_dec (boxOf p) d d1.box d1.enc chunks' hc', h,
    cbc_history_enc (boxOf p) e e1.box e1.enc chunks hc, d4, d5, e4, e5,
    blocks_of_flatten 8 (by decide) _ (cbcEnc_all 8 _ (fun b => by simp) _ _),
    cbcDec_cbcEnc 8 _ _ (fun b hb => D89_E89 _ _ b hb) (fun b => by simp) iv hiv _
      (blocks_all_length 8 (by decide) _ hdiv), blocks_flatten 8 (by decide)]

/-- The hypotheses can be met: the sender uses CryptoPro-A, the receiver's default is TC26-Z. -/
example : DerWit.codec.Sound ∧ get_encryption_params none (some (some .cryptoProA)) = some .cryptoProA ∧
    get_encryption_params none none = some .tc26Z ∧ sampleKey.length = 32 := ⟨DerWit.codec_sound, rfl, rfl, rfl⟩

end Gost
