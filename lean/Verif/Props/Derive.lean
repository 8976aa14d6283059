import Verif.Model.PkeyStr
import Verif.Props.KeyTransportMore

/-!
# C59: key agreement with `EVP_PKEY_derive`, after any history of control calls
-/

namespace Gost

open Spec (leNat beNat leBytes beBytes ecOf)

/-! ## Specification -/

/-- Control calls one after the other. -/
def runCtrls (pkey : Option EvpPkey) (d : PmethData) (ops : List PkeyCtrl) : PmethData := ops.foldl (fun d op => (pkey_gost_ctrl pkey d op).1) d

/-- The UKM set by a call, if it is one that sets a UKM of 0 to 32 bytes. -/
def ukmOf : PkeyCtrl → Option Bytes
  | .setIv p1 (some b) => if 0 ≤ p1 ∧ p1 ≤ 32 then some (b.take p1.toNat) else none
  | _ => none

/-- The VKO digest set by a call, if it is one that sets an allowed one. -/
def vkoOf : PkeyCtrl → Option DgstNid
  | .setVko n => if n = .undef ∨ n = .r3411_2012_256 ∨ n = .r3411_2012_512 then some n else none
  | _ => none

/-- The UKM last set. -/
def lastUkm (ops : List PkeyCtrl) : Bytes := ((ops.filterMap ukmOf).getLast?).getD []

/-- The VKO digest last set. -/
def lastVko (ops : List PkeyCtrl) : DgstNid := ((ops.filterMap vkoOf).getLast?).getD .undef

/-- The pointer given with a UKM points to as many bytes as announced. -/
def PkeyCtrl.Valid : PkeyCtrl → Prop
  | .setIv p1 (some b) => p1.toNat ≤ b.length
  | _ => True

/-- The key agreed on: none without a UKM; the VKO key with the digest set; if none is set, the VKO key of 32 bytes for a UKM of 8 bytes
and the KEG keys for one of 32 bytes. -/
def agreedKey (v : KxEnv) (pkey peer : EvpPkey) (ukm : Bytes) (vko : DgstNid) : Option Bytes :=
  if ukm = [] then none
  else if vko ≠ .undef then vkoOn v vko peer pkey ukm
  else if ukm.length = 8 then vkoOn v (vko32Digest pkey.nid) peer pkey ukm
  else if ukm.length = 32 then kegOn v ukm pkey.nid peer pkey
  else none

/-- Length of the key agreed on. -/
def agreedLen (ukm : Bytes) (vko : DgstNid) : Option Nat :=
  if ukm = [] then none
  else if vko ≠ .undef then some (if vko = .r3411_2012_256 then 32 else 64)
  else if ukm.length = 8 then some 32
  else if ukm.length = 32 then some 64
  else none

/-! ## Histories -/

/-- What a history leaves behind. -/
structure After (d : PmethData) (ukm : Bytes) (vko : DgstNid) : Prop where
  len : d.shared_ukm.length = 32
  size : d.shared_ukm_size = ukm.length
  le : ukm.length ≤ 32
  hukm : d.shared_ukm.take ukm.length = ukm
  hvko : d.vko_dgst_nid = vko
  allowed : vko = .undef ∨ vko = .r3411_2012_256 ∨ vko = .r3411_2012_512

theorem ctrl_after {pkey : Option EvpPkey} {d : PmethData} {ukm : Bytes} {vko : DgstNid} (h : After d ukm vko) (op : PkeyCtrl) (hv : op.Valid) :
    After (pkey_gost_ctrl pkey d op).1 ((ukmOf op).getD ukm) ((vkoOf op).getD vko) := by
  obtain ⟨h1, h2, h3, h4, h5, h6⟩ := h
  cases op with
  | md nid =>
    simp only [pkey_gost_ctrl, ukmOf, vkoOf, Option.getD_none]
    split <;> exact ⟨h1, h2, h3, h4, h5, h6⟩
  | paramset nid => exact ⟨h1, h2, h3, h4, h5, h6⟩
  | setIv p1 p2 =>
    cases p2 with
    | none => exact ⟨h1, h2, h3, h4, h5, h6⟩
    | some b =>
      simp only [pkey_gost_ctrl, ukmOf, vkoOf, Option.getD_none]
      have hv : p1.toNat ≤ b.length := hv
      by_cases hp : p1 < 0 ∨ p1 > 32
      · rw [if_pos hp, if_neg (by omega)]
        exact ⟨h1, h2, h3, h4, h5, h6⟩
      · rw [if_neg hp, if_pos (by omega)]
        have hl : (b.take p1.toNat).length = p1.toNat := by rw [List.length_take]; omega
        simp only [Option.getD_some]
        refine ⟨?_, hl.symm, by omega, ?_, h5, h6⟩
        · simp only [memcpy, List.length_append, hl, List.length_drop, h1]; omega
        · simp only [memcpy]
          exact List.take_left' rfl
  | setVko nid =>
    cases nid with
    | undef => exact ⟨h1, h2, h3, h4, rfl, Or.inl rfl⟩
    | r3411_2012_256 => exact ⟨h1, h2, h3, h4, rfl, Or.inr (Or.inl rfl)⟩
    | r3411_2012_512 => exact ⟨h1, h2, h3, h4, rfl, Or.inr (Or.inr rfl)⟩
    | r3411_94 => exact ⟨h1, h2, h3, h4, h5, h6⟩
    | other n => exact ⟨h1, h2, h3, h4, by simpa [pkey_gost_ctrl, vkoOf] using h5, by simpa [vkoOf] using h6⟩
  | cipher nid => exact ⟨h1, h2, h3, h4, h5, h6⟩
  | peerKey p1 =>
    simp only [pkey_gost_ctrl, ukmOf, vkoOf, Option.getD_none]
    split
    · exact ⟨h1, h2, h3, h4, h5, h6⟩
    split
    · exact ⟨h1, h2, h3, h4, h5, h6⟩
    split <;> exact ⟨h1, h2, h3, h4, h5, h6⟩
  | ignored => exact ⟨h1, h2, h3, h4, h5, h6⟩
  | unknown => exact ⟨h1, h2, h3, h4, h5, h6⟩

theorem getLast?_cons_getD {α : Type} (x : α) (l : List α) (d : α) : ((x :: l).getLast?).getD d = (l.getLast?).getD x := by
  cases l with
  | nil => rfl
  | cons y l => simp [List.getLast?_cons_cons, List.getLast?_eq_getLast_of_ne_nil]

theorem ctrls_after (pkey : Option EvpPkey) (ops : List PkeyCtrl) : ∀ (d : PmethData) (ukm : Bytes) (vko : DgstNid), After d ukm vko →
    (∀ op ∈ ops, op.Valid) → After (runCtrls pkey d ops) (((ops.filterMap ukmOf).getLast?).getD ukm) (((ops.filterMap vkoOf).getLast?).getD vko) := by
  induction ops with
  | nil => intro d ukm vko h _; exact h
  | cons op ops ih =>
    intro d ukm vko h hv
    have h1 := ih _ _ _ (ctrl_after (pkey := pkey) h op (hv op List.mem_cons_self)) (fun o ho => hv o (List.mem_cons_of_mem _ ho))
    have e1 : (((op :: ops).filterMap ukmOf).getLast?).getD ukm = ((ops.filterMap ukmOf).getLast?).getD ((ukmOf op).getD ukm) := by
      cases hu : ukmOf op with
      | none => rw [List.filterMap_cons_none hu]; rfl
      | some u => rw [List.filterMap_cons_some hu, getLast?_cons_getD]; rfl
    have e2 : (((op :: ops).filterMap vkoOf).getLast?).getD vko = ((ops.filterMap vkoOf).getLast?).getD ((vkoOf op).getD vko) := by
      cases hu : vkoOf op with
      | none => rw [List.filterMap_cons_none hu]; rfl
      | some u => rw [List.filterMap_cons_some hu, getLast?_cons_getD]; rfl
    rw [e1, e2]
    exact h1

theorem zero_after (n : Option CurveNid) : After { PmethData.zero with sign_param_nid := n } [] .undef :=
  ⟨rfl, rfl, by decide, rfl, rfl, Or.inl rfl⟩

theorem init_after {pkey : Option EvpPkey} {d : PmethData} (h : pkey_gost_init pkey = some d) : After d [] .undef := by
  unfold pkey_gost_init at h
  split at h
  · cases h; exact zero_after none
  · split at h
    · cases h
    · cases h; exact zero_after _

/-! ## The theorems -/

/-- **C59**: on a new context, after any sequence of control calls, the key derived is the agreed key for the UKM last set and the VKO
digest last set; nothing else in the history matters, in particular not the bytes of earlier, longer UKMs. -/
theorem C59_derive_last_settings (v : KxEnv) (pkey peer : EvpPkey) (d : PmethData) (hi : pkey_gost_init (some pkey) = some d)
    (ops : List PkeyCtrl) (hv : ∀ op ∈ ops, op.Valid) :
    pkey_gost_ec_derive v ⟨pkey, some peer, runCtrls (some pkey) d ops⟩ false = .ofKey (agreedKey v pkey peer (lastUkm ops) (lastVko ops)) := by
  have h := ctrls_after (some pkey) ops d [] .undef (init_after hi) hv
  change After _ (lastUkm ops) (lastVko ops) at h
  generalize lastUkm ops = ukm at h
  generalize lastVko ops = vko at h
  generalize runCtrls (some pkey) d ops = r at h
  obtain ⟨h1, h2, h3, h4, h5, h6⟩ := h
  unfold pkey_gost_ec_derive agreedKey
  simp only [h2, h5, h4, Bool.false_eq_true, if_false]
  by_cases hu : ukm = []
  · subst hu; simp [DeriveRes.ofKey]
  · have hul : ukm.length ≠ 0 := by simpa using hu
    rw [if_neg hul, if_neg hu]
    split
    · rfl
    split
    · rename_i h8; rw [h8] at h4; rw [h4]
    split
    · rename_i h32
      rw [h32] at h4
      rw [List.take_of_length_le (by omega)] at h4
      rw [h4]
    · rfl

/-- **C59**: the size reported for a NULL buffer after any sequence of control calls is the length of every key derived. -/
theorem C59_size_is_length (v : KxEnv) (pkey peer : EvpPkey) (d : PmethData) (hi : pkey_gost_init (some pkey) = some d) (ops : List PkeyCtrl)
    (hv : ∀ op ∈ ops, op.Valid) :
    pkey_gost_ec_derive v ⟨pkey, some peer, runCtrls (some pkey) d ops⟩ true =
      (match agreedLen (lastUkm ops) (lastVko ops) with | some n => .size n | none => .fail) ∧
    ∀ k, pkey_gost_ec_derive v ⟨pkey, some peer, runCtrls (some pkey) d ops⟩ false = .key k → agreedLen (lastUkm ops) (lastVko ops) = some k.length := by
  have h := ctrls_after (some pkey) ops d [] .undef (init_after hi) hv
  change After _ (lastUkm ops) (lastVko ops) at h
  have hder := C59_derive_last_settings v pkey peer d hi ops hv
  constructor
  · generalize lastUkm ops = ukm at h
    generalize lastVko ops = vko at h
    generalize runCtrls (some pkey) d ops = r at h
    obtain ⟨h1, h2, h3, h4, h5, h6⟩ := h
    unfold pkey_gost_ec_derive agreedLen
    simp only [h2, h5, if_true]
    by_cases hu : ukm = []
    · subst hu; simp
    · have hul : ukm.length ≠ 0 := by simpa using hu
      rw [if_neg hul, if_neg hu]
      by_cases c1 : vko ≠ .undef
      · rw [if_pos c1, if_pos c1]
      · rw [if_neg c1, if_neg c1]
        by_cases c2 : ukm.length = 8
        · rw [if_pos c2, if_pos c2]
        · rw [if_neg c2, if_neg c2]
          by_cases c3 : ukm.length = 32
          · rw [if_pos c3, if_pos c3]
          · rw [if_neg c3, if_neg c3]
  · intro k hk
    rw [hder] at hk
    obtain ⟨h1, h2, h3, h4, h5, h6⟩ := h
    have hk' : agreedKey v pkey peer (lastUkm ops) (lastVko ops) = some k := by
      cases ha : agreedKey v pkey peer (lastUkm ops) (lastVko ops) with
      | none => rw [ha] at hk; cases hk
      | some k' => rw [ha] at hk; cases hk; rfl
    have vlen : ∀ {nid : DgstNid} {md : Bytes → Bytes} {u : Bytes} {n : Nat}, v.md.get nid = some md → (∀ m, (md m).length = n) →
        vkoOn v nid peer pkey u = some k → k.length = n := by
      intro nid md u n hmd hl h
      unfold vkoOn at h
      rw [hmd] at h
      split at h
      · rename_i m gp Q g dd e1 e2 e3 e4 e5
        cases e1
        split at h
        · unfold VKO_compute_key at h
          simp only [Option.bind_eq_bind, Option.bind_eq_some_iff] at h
          obtain ⟨pnt, _, xy, _, x, _, y, _, h⟩ := h
          cases h
          exact hl _
        · cases h
      · cases h
    unfold agreedKey at hk'
    unfold agreedLen
    by_cases hu : lastUkm ops = []
    · rw [if_pos hu] at hk'; cases hk'
    · rw [if_neg hu] at hk' ⊢
      by_cases c1 : lastVko ops ≠ .undef
      · rw [if_pos c1] at hk' ⊢
        rcases h6 with h6 | h6 | h6
        · exact absurd h6 c1
        · rw [h6] at hk' ⊢
          rw [if_pos rfl, vlen rfl v.md.len256 hk']
        · rw [h6] at hk' ⊢
          rw [if_neg (by decide), vlen rfl v.md.len512 hk']
      · rw [if_neg c1] at hk' ⊢
        by_cases c2 : (lastUkm ops).length = 8
        · rw [if_pos c2] at hk' ⊢
          rw [vkoOn_length hk']
        · rw [if_neg c2] at hk' ⊢
          by_cases c3 : (lastUkm ops).length = 32
          · rw [if_pos c3] at hk' ⊢
            rw [kegOn_length hk']
          · rw [if_neg c3] at hk'; cases hk'

/-- **C59**: two parties with key pairs of one type on one curve, each having the other's public key, who last set the same UKM and the same
VKO digest, derive the same key (or both fail); and they do not fail if the UKM is not a multiple of the order of the curve when VKO is
used, and always when KEG is used with keys of the types of 2012. -/
theorem C59_parties_agree (v w : KxEnv) (hvw : v.Same w) (c : CurveNid) (A B : EvpPkey) (hA : IsKeyPair c A) (hB : IsKeyPair c B)
    (ht : A.nid = B.nid) (dA dB : PmethData) (hiA : pkey_gost_init (some A) = some dA) (hiB : pkey_gost_init (some B) = some dB)
    (opsA opsB : List PkeyCtrl) (hvA : ∀ op ∈ opsA, op.Valid) (hvB : ∀ op ∈ opsB, op.Valid) (hu : lastUkm opsA = lastUkm opsB)
    (hk : lastVko opsA = lastVko opsB) :
    pkey_gost_ec_derive v ⟨A, some B.public, runCtrls (some A) dA opsA⟩ false =
      pkey_gost_ec_derive w ⟨B, some A.public, runCtrls (some B) dB opsB⟩ false ∧
    ((agreedLen (lastUkm opsA) (lastVko opsA) = some 64 ∧ lastVko opsA = .undef ∧ (A.nid = .gost2012_256 ∨ A.nid = .gost2012_512)) ∨
     (agreedLen (lastUkm opsA) (lastVko opsA) ≠ none ∧ (lastVko opsA ≠ .undef ∨ (lastUkm opsA).length = 8) ∧
        ∀ e, gost_nid2params c = some e → ¬ e.q ∣ leNat (lastUkm opsA)) →
      ∃ k, pkey_gost_ec_derive v ⟨A, some B.public, runCtrls (some A) dA opsA⟩ false = .key k) := by
  rw [C59_derive_last_settings v A B.public dA hiA opsA hvA, C59_derive_last_settings w B A.public dB hiB opsB hvB]
  obtain ⟨-, -, -, -, -, hal⟩ := ctrls_after (some A) opsA dA [] .undef (init_after hiA) hvA
  change lastVko opsA = _ ∨ lastVko opsA = _ ∨ lastVko opsA = _ at hal
  rw [hu, hk]
  rw [hk] at hal
  generalize lastUkm opsB = ukm
  generalize lastVko opsB = vko at hal
  obtain ⟨e, he, -⟩ := id hA
  have vp : ∀ nid md, v.md.get nid = some md → vkoOn v nid B.public A ukm = vkoOn w nid A.public B ukm ∧
      (¬ e.q ∣ leNat ukm → ∃ k, vkoOn v nid B.public A ukm = some k) := by
    intro nid md hmd
    obtain ⟨h1, h2, -⟩ := pair_vko hA hB v w hvw nid md hmd ukm
    refine ⟨h1, fun h => ?_⟩
    obtain ⟨m, hm⟩ := h2 e he h
    exact ⟨_, hm⟩
  obtain ⟨md32, hmd32, -⟩ := vko32_md v.md A.nid
  obtain ⟨p1, p2⟩ := vp _ _ hmd32
  have pv : vko ≠ .undef → vkoOn v vko B.public A ukm = vkoOn w vko A.public B ukm ∧
      (¬ e.q ∣ leNat ukm → ∃ k, vkoOn v vko B.public A ukm = some k) := by
    intro hne
    rcases hal with h | h | h
    · exact absurd h hne
    · rw [h]; exact vp _ _ rfl
    · rw [h]; exact vp _ _ rfl
  have kegNone : ¬ (A.nid = .gost2012_256 ∨ A.nid = .gost2012_512) → ∀ (v : KxEnv) (P M : EvpPkey), kegOn v ukm A.nid P M = none := by
    intro hn v P M
    unfold kegOn
    split
    · split
      · unfold gost_keg
        cases hAn : A.nid with
        | gost2001 => rfl
        | gost2001DH => rfl
        | gost2012_256 => exact absurd (Or.inl hAn) hn
        | gost2012_512 => exact absurd (Or.inr hAn) hn
      · rfl
    · rfl
  constructor
  · unfold agreedKey
    by_cases h0 : ukm = []
    · rw [if_pos h0, if_pos h0]
    · rw [if_neg h0, if_neg h0]
      by_cases c1 : vko ≠ .undef
      · rw [if_pos c1, if_pos c1, (pv c1).1]
      · rw [if_neg c1, if_neg c1]
        by_cases c2 : ukm.length = 8
        · rw [if_pos c2, if_pos c2, ← ht, p1]
        · rw [if_neg c2, if_neg c2]
          by_cases c3 : ukm.length = 32
          · rw [if_pos c3, if_pos c3, ← ht]
            by_cases hn : A.nid = .gost2012_256 ∨ A.nid = .gost2012_512
            · obtain ⟨k, k1, k2, -⟩ := pair_keg hA hB v w hvw A.nid hn ukm (by omega)
              rw [show kegOn v ukm A.nid B.public A = some k from k1, show kegOn w ukm A.nid A.public B = some k from k2]
            · rw [kegNone hn, kegNone hn]
          · rw [if_neg c3, if_neg c3]
  · intro h
    suffices hs : ∃ k, agreedKey v A B.public ukm vko = some k by
      obtain ⟨k, hk⟩ := hs
      exact ⟨k, by rw [hk]; rfl⟩
    unfold agreedKey
    rcases h with ⟨l1, l2, l3⟩ | ⟨l1, l2, l3⟩
    · unfold agreedLen at l1
      by_cases h0 : ukm = []
      · rw [if_pos h0] at l1; cases l1
      · rw [if_neg h0] at l1 ⊢
        rw [if_neg (by simp [l2])] at l1 ⊢
        by_cases c2 : ukm.length = 8
        · rw [if_pos c2] at l1; cases l1
        · rw [if_neg c2] at l1 ⊢
          by_cases c3 : ukm.length = 32
          · rw [if_pos c3]
            obtain ⟨k, k1, -, -⟩ := pair_keg hA hB v w hvw A.nid l3 ukm (by omega)
            exact ⟨k, k1⟩
          · rw [if_neg c3] at l1; cases l1
    · unfold agreedLen at l1
      by_cases h0 : ukm = []
      · rw [if_pos h0] at l1; exact absurd rfl l1
      · rw [if_neg h0]
        by_cases c1 : vko ≠ .undef
        · rw [if_pos c1]
          exact (pv c1).2 (l3 e he)
        · rw [if_neg c1, if_pos (l2.resolve_left c1)]
          exact p2 (l3 e he)

/-- **C59**: the key is the one of the standard: with a VKO digest set, that digest of the coordinates of the point
`(cofactor · UKM · d) Q`. -/
theorem C59_vko_is_standard (v : KxEnv) (c : CurveNid) (e : EcParams) (he : gost_nid2params c = some e) (hc : c ≠ .tc26_512_paramSetTest)
    [Fact e.p.Prime] (gen : CurvePoint (e.a : ZMod e.p) (e.b : ZMod e.p)) (hg : ecOf gen = some (e.x, e.y)) (nid nid' : PkeyNid)
    (d dp : Nat) (hd : ¬ e.q ∣ dp) (pub : Option EcPoint) (D : PmethData)
    (hi : pkey_gost_init (some ⟨nid, some (groupOf e c), some d, pub⟩) = some D)
    (ops : List PkeyCtrl) (hv : ∀ op ∈ ops, op.Valid) (ho : lastUkm ops ≠ []) (md : Bytes → Bytes) (hn : lastVko ops ≠ .undef)
    (hmd : v.md.get (lastVko ops) = some md) :
    pkey_gost_ec_derive v ⟨⟨nid, some (groupOf e c), some d, pub⟩, some ⟨nid', some (groupOf e c), none, some (ecOf (dp • gen))⟩,
        runCtrls (some ⟨nid, some (groupOf e c), some d, pub⟩) D ops⟩ false =
      .ofKey ((sharedBytes (curveGroup e gen) (Spec.vkoPoint e.cofactor (leNat (lastUkm ops)) d (dp • gen))).map md) := by
  rw [C59_derive_last_settings v _ _ D hi ops hv]
  have hvA := engine_via v.ws v.ossl he hc gen hg
  have hE := curveGroup_sound he gen hg
  have hn0 : dp • gen ≠ 0 := fun h0 => hd ((nsmul_eq_zero_iff hE.prime hE.gen_order hE.gen_ne).1 h0)
  have hq0 : e.q • (dp • gen) = 0 := by
    rw [← mul_nsmul', mul_nsmul]
    have : e.q • gen = 0 := hE.gen_order
    rw [this, nsmul_zero]
  unfold agreedKey
  rw [if_neg ho, if_pos hn]
  unfold vkoOn
  simp only [hmd]
  rw [if_pos trivial, hvA.vko, C40_vko_is_standard (curveGroup e gen) hE md _ hn0 hq0]
  rfl

end Gost
