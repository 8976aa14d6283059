import Verif.Model.KeyCheck
import Verif.Props.KeyTransportMore

/-!
# C85: a public key received from anybody is safe to use

The bytes of the key are arbitrary. On the curves with cofactor 1 every key that is decoded is in the group of order `q`; on the two
curves with cofactor 4 it may have a part of small order: key agreement removes it, so the shared secret is always in the group of
order `q` and depends on the whole private key, or there is none.
-/

namespace Gost

open Spec (leNat beNat leBytes beBytes ecOf)

/-- A key somebody sent: what some bytes were decoded to, after any use of the library. -/
def Received (D : KeyDer) (pk : EvpPkey) : Prop :=
  ∃ (history : List (Option CurveNid)) (ki : KeyInfo), (pub_decode D (cacheAfter history) ki).2 = some pk

/-- A pair of numbers on the curve is a point of the curve. -/
theorem point_of_coords {nid : CurveNid} {e : EcParams} (he : gost_nid2params nid = some e) [Fact e.p.Prime] {x y : Nat} (hx : x < e.p) (hy : y < e.p)
    (hon : y ^ 2 % e.p = (x ^ 3 + e.a * x + e.b) % e.p) : ∃ P : CurvePoint (e.a : ZMod e.p) (e.b : ZMod e.p), P ≠ 0 ∧ ecOf P = some (x, y) := by
  have hz : ((y : ZMod e.p)) ^ 2 = (x : ZMod e.p) ^ 3 + e.a * x + e.b := by
    have := (ZMod.natCast_eq_natCast_iff' _ _ _).2 hon
    push_cast at this
    exact this
  have hd := (C46_selected_standard nid e he).discriminant
  have hns : (shortW (e.a : ZMod e.p) (e.b : ZMod e.p)).toAffine.Nonsingular (x : ZMod e.p) (y : ZMod e.p) := by
    have heq : (shortW (e.a : ZMod e.p) (e.b : ZMod e.p)).toAffine.Equation (x : ZMod e.p) (y : ZMod e.p) := by
      rw [WeierstrassCurve.Affine.equation_iff]
      simpa using hz
    refine (WeierstrassCurve.Affine.equation_iff_nonsingular_of_Δ_ne_zero ?_).1 heq
    have hp2 : e.p ≠ 2 := by
      have h1 := (cofactor_facts e (selected_mem he)).2.1.1
      intro h2
      rw [h2] at h1
      norm_num at h1
    have : (shortW (e.a : ZMod e.p) (e.b : ZMod e.p)).Δ = -16 * ((4 * e.a ^ 3 + 27 * e.b ^ 2 : Nat) : ZMod e.p) := by
      simp only [WeierstrassCurve.Δ, WeierstrassCurve.b₂, WeierstrassCurve.b₄, WeierstrassCurve.b₆, WeierstrassCurve.b₈]
      push_cast
      ring
    rw [show (WeierstrassCurve.toAffine (shortW (e.a : ZMod e.p) (e.b : ZMod e.p))).Δ = (shortW (e.a : ZMod e.p) (e.b : ZMod e.p)).Δ from rfl, this]
    refine mul_ne_zero (neg_ne_zero.2 ?_) ?_
    · have : ((16 : Nat) : ZMod e.p) ≠ 0 := by
        rw [Ne, ZMod.natCast_eq_zero_iff]
        intro h16
        have h2 : e.p ∣ 2 := (Fact.out : e.p.Prime).dvd_of_dvd_pow (show e.p ∣ 2 ^ 4 from h16)
        exact hp2 ((Nat.prime_dvd_prime_iff_eq Fact.out Nat.prime_two).1 h2)
      exact_mod_cast this
    · rw [Ne, ZMod.natCast_eq_zero_iff]
      exact hd
  refine ⟨.some _ _ hns, (fun h => by cases h), ?_⟩
  simp only [ecOf, ZMod.val_natCast, Nat.mod_eq_of_lt hx, Nat.mod_eq_of_lt hy]

/-- **C85**: whatever bytes are decoded, the key is a point of a built-in curve other than infinity, which `cofactor * q` sends to infinity;
on a curve of cofactor 1, `q` does. -/
theorem C85_received_key_order (D : KeyDer) (pk : EvpPkey) (h : Received D pk) :
    ∃ c e, gost_nid2params c = some e ∧ pk.group = some (groupOf e c) ∧ ∀ _ : Fact e.p.Prime,
      ∃ P : CurvePoint (e.a : ZMod e.p) (e.b : ZMod e.p), pk.pub = some (ecOf P) ∧ P ≠ 0 ∧ e.q • e.cofactor • P = 0 ∧ (e.cofactor = 1 → e.q • P = 0) := by
  obtain ⟨history, ki, h⟩ := h
  obtain ⟨-, -, der, v, e, x, y, -, -, he, hg, hp, hx, hy, hon⟩ := C57_decoded_public_on_curve D history ki pk h
  refine ⟨v.key_params, e, he, hg, fun hf => ?_⟩
  obtain ⟨P, hP0, hP⟩ := point_of_coords he hx hy hon
  have hc := C46_cofactor_clears v.key_params e he P
  refine ⟨P, by rw [hp, hP], hP0, hc, fun h1 => ?_⟩
  rw [h1, one_nsmul] at hc
  exact hc

/-! ## Key agreement -/

/-- `mine` holds the private number `d` on the curve `c`, `peer` the point `P`. -/
structure Agreeing (c : CurveNid) (e : EcParams) [Fact e.p.Prime] (peer mine : EvpPkey) (P : CurvePoint (e.a : ZMod e.p) (e.b : ZMod e.p)) (d : Nat) : Prop where
  curve : gost_nid2params c = some e
  file : c ≠ .tc26_512_paramSetTest
  group : mine.group = some (groupOf e c)
  priv : mine.priv = some d
  peer_group : peer.group = some (groupOf e c)
  peer_pub : peer.pub = some (ecOf P)
  nonzero : P ≠ 0

theorem vkoOn_eq {c : CurveNid} {e : EcParams} [Fact e.p.Prime] {peer mine : EvpPkey} {P : CurvePoint (e.a : ZMod e.p) (e.b : ZMod e.p)} {d : Nat}
    (h : Agreeing c e peer mine P d) (v : KxEnv) (nid : DgstNid) (md : Bytes → Bytes) (hmd : v.md.get nid = some md) (ukm : Bytes) :
    vkoOn v nid peer mine ukm = ((ecOf ((leNat ukm * d % e.q) • e.cofactor • P)).map
      fun xy => leBytes (BN_num_bytes e.p) xy.1 ++ leBytes (BN_num_bytes e.p) xy.2).map md := by
  obtain ⟨gen, hg⟩ := base_exists h.curve
  have hv := engine_via v.ws v.ossl h.curve h.file gen hg
  have hE := curveGroup_sound h.curve gen hg
  unfold vkoOn
  simp only [hmd, h.peer_group, h.peer_pub, h.group, h.priv]
  rw [if_pos trivial, hv.vko, vko_eq _ hE md P h.nonzero]
  show (Option.map _ (ecOf ((e.cofactor * (leNat ukm * d % e.q)) • P))).map md = _
  rw [mul_nsmul]
  rfl

theorem ecOf_none {p : Nat} [Fact p.Prime] {a b : ZMod p} {P : CurvePoint a b} : ecOf P = none ↔ P = 0 := by
  cases P with
  | zero => exact ⟨fun _ => rfl, fun _ => rfl⟩
  | some x y hh => exact ⟨(fun h => by cases h), (fun h => by cases h)⟩

theorem ecOf_inj {p : Nat} [Fact p.Prime] {a b : ZMod p} {P Q : CurvePoint a b} (h : ecOf P = ecOf Q) : P = Q := by
  cases P with
  | zero => exact (ecOf_none.1 h.symm).symm
  | some x y hh =>
    cases Q with
    | zero => cases h
    | some x' y' hh' =>
      simp only [ecOf, Option.some.injEq, Prod.mk.injEq] at h
      obtain rfl : x = x' := ZMod.val_injective _ h.1
      obtain rfl : y = y' := ZMod.val_injective _ h.2
      rfl

theorem ecOf_lt {p : Nat} [Fact p.Prime] {a b : ZMod p} {P : CurvePoint a b} {x y : Nat} (h : ecOf P = some (x, y)) : x < p ∧ y < p := by
  cases P with
  | zero => cases h
  | some X Y hh =>
    simp only [ecOf, Option.some.injEq, Prod.mk.injEq] at h
    obtain ⟨rfl, rfl⟩ := h
    exact ⟨ZMod.val_lt X, ZMod.val_lt Y⟩

/-- **C85**: key agreement with any received key: the secret is the digest of the two coordinates of a point other than infinity of the
group of order `q`, the multiple `UKM * d` of the peer's key without its part of small order. There is none exactly when the UKM or the private number is a multiple
of `q`, or the peer's key has nothing but a part of small order. -/
theorem C85_agreement_in_subgroup (v : KxEnv) (peer mine : EvpPkey) (c : CurveNid) (e : EcParams) [Fact e.p.Prime] (P : CurvePoint (e.a : ZMod e.p) (e.b : ZMod e.p))
    (d : Nat) (h : Agreeing c e peer mine P d) (nid : DgstNid) (md : Bytes → Bytes) (hmd : v.md.get nid = some md) (ukm : Bytes) :
    (vkoOn v nid peer mine ukm = none ↔ e.q ∣ leNat ukm ∨ e.q ∣ d ∨ e.cofactor • P = 0) ∧
    ∀ key, vkoOn v nid peer mine ukm = some key →
      ∃ (R : CurvePoint (e.a : ZMod e.p) (e.b : ZMod e.p)) (x y : Nat), R = (leNat ukm * d) • e.cofactor • P ∧ R ≠ 0 ∧ e.q • R = 0 ∧ ecOf R = some (x, y) ∧
        key = md (leBytes (BN_num_bytes e.p) x ++ leBytes (BN_num_bytes e.p) y) := by
  have hq := (C46_selected_standard c e h.curve).prime_q
  have hcl := C46_cofactor_clears c e h.curve P
  have hR : (leNat ukm * d % e.q) • e.cofactor • P = (leNat ukm * d) • e.cofactor • P :=
    nsmul_congr hcl (by rw [ZMod.natCast_mod])
  rw [vkoOn_eq h v nid md hmd ukm, hR]
  constructor
  · rw [Option.map_eq_none_iff, Option.map_eq_none_iff, ecOf_none]
    by_cases h0 : e.cofactor • P = 0
    · simp [h0]
    · rw [nsmul_eq_zero_iff hq hcl h0, hq.dvd_mul]
      simp [h0]
  · intro key hk
    obtain ⟨m, hm, rfl⟩ := Option.map_eq_some_iff.1 hk
    obtain ⟨⟨x, y⟩, hxy, rfl⟩ := Option.map_eq_some_iff.1 hm
    refine ⟨_, x, y, rfl, ?_, ?_, hxy, rfl⟩
    · intro h0
      rw [h0] at hxy
      cases hxy
    · rw [← mul_nsmul', mul_comm, mul_nsmul', hcl, nsmul_zero]

/-- **C85**: the sender of a key cannot confine the secret to a small set: whatever key was received, private numbers that differ
modulo `q` are answered by digests of different bytes, those of two different points (same UKM, not a multiple of `q`). -/
theorem C85_no_confinement (v : KxEnv) (peer mine₁ mine₂ : EvpPkey) (c : CurveNid) (e : EcParams) [Fact e.p.Prime] (P : CurvePoint (e.a : ZMod e.p) (e.b : ZMod e.p))
    (d₁ d₂ : Nat) (h₁ : Agreeing c e peer mine₁ P d₁) (h₂ : Agreeing c e peer mine₂ P d₂) (hd : d₁ % e.q ≠ d₂ % e.q) (nid : DgstNid) (md : Bytes → Bytes)
    (hmd : v.md.get nid = some md) (ukm : Bytes) (hu : ¬ e.q ∣ leNat ukm) (k₁ k₂ : Bytes) (hk₁ : vkoOn v nid peer mine₁ ukm = some k₁)
    (hk₂ : vkoOn v nid peer mine₂ ukm = some k₂) :
    ∃ x₁ y₁ x₂ y₂ : Nat, ecOf ((leNat ukm * d₁) • e.cofactor • P) = some (x₁, y₁) ∧ ecOf ((leNat ukm * d₂) • e.cofactor • P) = some (x₂, y₂) ∧
      k₁ = md (leBytes (BN_num_bytes e.p) x₁ ++ leBytes (BN_num_bytes e.p) y₁) ∧
      k₂ = md (leBytes (BN_num_bytes e.p) x₂ ++ leBytes (BN_num_bytes e.p) y₂) ∧
      leBytes (BN_num_bytes e.p) x₁ ++ leBytes (BN_num_bytes e.p) y₁ ≠ leBytes (BN_num_bytes e.p) x₂ ++ leBytes (BN_num_bytes e.p) y₂ := by
  have hq := (C46_selected_standard c e h₁.curve).prime_q
  have hcl := C46_cofactor_clears c e h₁.curve P
  obtain ⟨R₁, x₁, y₁, hR₁, hn₁, -, hc₁, rfl⟩ := (C85_agreement_in_subgroup v peer mine₁ c e P d₁ h₁ nid md hmd ukm).2 k₁ hk₁
  obtain ⟨R₂, x₂, y₂, hR₂, hn₂, -, hc₂, rfl⟩ := (C85_agreement_in_subgroup v peer mine₂ c e P d₂ h₂ nid md hmd ukm).2 k₂ hk₂
  refine ⟨x₁, y₁, x₂, y₂, hR₁ ▸ hc₁, hR₂ ▸ hc₂, rfl, rfl, ?_⟩
  intro heq
  obtain ⟨hx, hy⟩ := List.append_inj heq (by simp)
  have hb := lt_pow_num_bytes e.p
  have key : ∀ a b : Nat, a < e.p → b < e.p → leBytes (BN_num_bytes e.p) a = leBytes (BN_num_bytes e.p) b → a = b := by
    intro a b ha hb' hab
    have := congrArg leNat hab
    rwa [leNat_leBytes, leNat_leBytes, Nat.mod_eq_of_lt (lt_trans ha hb), Nat.mod_eq_of_lt (lt_trans hb' hb)] at this
  have hxx := key _ _ (ecOf_lt hc₁).1 (ecOf_lt hc₂).1 hx
  have hyy := key _ _ (ecOf_lt hc₁).2 (ecOf_lt hc₂).2 hy
  have hRR : R₁ = R₂ := ecOf_inj (by rw [hc₁, hc₂, hxx, hyy])
  have h0 : e.cofactor • P ≠ 0 := by
    intro h0
    rw [h0, nsmul_zero] at hR₁
    exact hn₁ hR₁
  have hm := nsmul_inj hq hcl h0 (hR₁.symm.trans (hRR.trans hR₂))
  push_cast at hm
  have : Fact e.q.Prime := ⟨hq⟩
  have hu0 : ((leNat ukm : Nat) : ZMod e.q) ≠ 0 := by rwa [Ne, ZMod.natCast_eq_zero_iff]
  exact hd ((ZMod.natCast_eq_natCast_iff' _ _ _).1 (mul_left_cancel₀ hu0 hm))

/-! ## Signatures -/

/-- **C85**: a signature is checked with a received key as the standard says, on every curve of cofactor 1 (and on the others when the
key is in the group of order `q`). -/
theorem C85_verify_standard (ws : WordSize) (ossl : EcpFile) (D : KeyDer) (pk : EvpPkey) (h : Received D pk) :
    ∃ c e, gost_nid2params c = some e ∧ pk.group = some (groupOf e c) ∧ ∀ _ : Fact e.p.Prime,
      ∃ gen P : CurvePoint (e.a : ZMod e.p) (e.b : ZMod e.p), ecOf gen = some (e.x, e.y) ∧ pk.pub = some (ecOf P) ∧
        ((e.cofactor = 1 ∨ e.q • P = 0) → c ≠ .tc26_512_paramSetTest → ∀ (dgst : Bytes) (r s : Int), dgst.length = 32 ∨ dgst.length = 64 →
          (gost_ec_verify (engineGroup ws ossl (groupOf e c)) dgst r s (ecOf P) = 1 ↔
            Spec.Verifies gen e.q (fun P => (ecOf P).map (·.1)) P (Spec.digestNumber e.q dgst) r s)) := by
  obtain ⟨c, e, he, hg, hP⟩ := C85_received_key_order D pk h
  refine ⟨c, e, he, hg, fun hf => ?_⟩
  obtain ⟨P, hp, h0, -, h1⟩ := hP hf
  obtain ⟨gen, hgen⟩ := base_exists he
  refine ⟨gen, P, hgen, hp, fun hc hn dgst r s hl => ?_⟩
  exact C45_engine_verifies_standard ws ossl c hn e he gen P hgen h0 (hc.elim h1 id) dgst hl r s

/-! ## Checking keys -/

/-- What is assumed of OpenSSL's `EC_POINT_mul`: on points of a built-in curve it is multiplication. -/
def OsslMul.Sound (mul : OsslMul) : Prop :=
  ∀ (c : CurveNid) (e : EcParams), gost_nid2params c = some e → ∀ (_ : Fact e.p.Prime) (n : Nat) (P : CurvePoint (e.a : ZMod e.p) (e.b : ZMod e.p)),
    mul (groupOf e c) n (ecOf P) = ecOf (n • P)

theorem on_of_ecOf {e : EcParams} [Fact e.p.Prime] {P : CurvePoint (e.a : ZMod e.p) (e.b : ZMod e.p)} {x y : Nat} (h : ecOf P = some (x, y)) :
    y ^ 2 % e.p = (x ^ 3 + e.a * x + e.b) % e.p := by
  cases P with
  | zero => cases h
  | some X Y hh =>
    simp only [ecOf, Option.some.injEq, Prod.mk.injEq] at h
    have heq := (WeierstrassCurve.Affine.equation_iff _ _).1 hh.1
    obtain ⟨rfl, rfl⟩ := h
    have : ((Y.val ^ 2 : Nat) : ZMod e.p) = ((X.val ^ 3 + e.a * X.val + e.b : Nat) : ZMod e.p) := by
      push_cast
      rw [ZMod.natCast_zmod_val, ZMod.natCast_zmod_val]
      simpa using heq
    exact (ZMod.natCast_eq_natCast_iff _ _ _).1 this

theorem publicCheck_iff {mul : OsslMul} (hm : mul.Sound) {c : CurveNid} {e : EcParams} (he : gost_nid2params c = some e) [hf : Fact e.p.Prime]
    (P : CurvePoint (e.a : ZMod e.p) (e.b : ZMod e.p)) : publicCheck mul (groupOf e c) (ecOf P) = true ↔ P ≠ 0 ∧ e.q • P = 0 := by
  have hmul := hm c e he hf e.q P
  cases hP : ecOf P with
  | none =>
    have := ecOf_none.1 hP
    simp [publicCheck, this]
  | some xy =>
    obtain ⟨x, y⟩ := xy
    have hne : P ≠ 0 := fun h => by rw [h] at hP; cases hP
    obtain ⟨hx, hy⟩ := ecOf_lt hP
    have hon := on_of_ecOf hP
    have hset : (groupOf e c).setAffine x y = true := by
      unfold EcGroupRec.setAffine
      exact beq_iff_eq.2 hon
    rw [hP] at hmul
    unfold publicCheck
    simp only [hset, Bool.and_true, Bool.and_eq_true, decide_eq_true_eq]
    rw [show (groupOf e c).q = e.q from rfl, hmul, Option.isNone_iff_eq_none, ecOf_none]
    exact ⟨fun h => ⟨hne, h.2⟩, fun h => ⟨⟨hx, hy⟩, h.2⟩⟩

/-- **C85**: `EVP_PKEY_public_check` accepts a received key exactly when it is in the group of order `q`: every received key on a curve
of cofactor 1, and on the others those without a part of small order. -/
theorem C85_public_check (mul : OsslMul) (hm : mul.Sound) (D : KeyDer) (pk : EvpPkey) (h : Received D pk) :
    ∃ c e, gost_nid2params c = some e ∧ pk.group = some (groupOf e c) ∧ ∀ _ : Fact e.p.Prime,
      ∃ P : CurvePoint (e.a : ZMod e.p) (e.b : ZMod e.p), pk.pub = some (ecOf P) ∧ (pkey_gost_check mul pk = 1 ↔ e.q • P = 0) ∧
        (e.cofactor = 1 → pkey_gost_check mul pk = 1) := by
  have hpriv : pk.priv = none := by
    obtain ⟨history, ki, h'⟩ := h
    exact (C57_decoded_public_on_curve D history ki pk h').2.1
  obtain ⟨c, e, he, hg, hP⟩ := C85_received_key_order D pk h
  refine ⟨c, e, he, hg, fun hf => ?_⟩
  obtain ⟨P, hp, h0, -, h1⟩ := hP hf
  have hiff : pkey_gost_check mul pk = 1 ↔ e.q • P = 0 := by
    unfold pkey_gost_check
    simp only [hg, hp, hpriv]
    have := publicCheck_iff hm he P
    split
    · rename_i hc
      exact ⟨fun _ => (this.1 hc).2, fun _ => rfl⟩
    · rename_i hc
      exact ⟨(fun h => by cases h), fun h => absurd (this.2 ⟨h0, h⟩) hc⟩
  exact ⟨P, hp, hiff, fun hc => hiff.2 (h1 hc)⟩

/-- **C85**: `EVP_PKEY_check` of a key pair: it is accepted exactly when the private number is below `q`; a pair whose public point is
not that multiple of the base point never is. -/
theorem C85_pair_check (mul : OsslMul) (hm : mul.Sound) (c : CurveNid) (pk : EvpPkey) (h : IsKeyPair c pk) :
    (∀ e d, gost_nid2params c = some e → pk.priv = some d → (pkey_gost_check mul pk = 1 ↔ d < e.q)) ∧
    (∀ Q, pk.pub ≠ some Q → pkey_gost_check mul { pk with pub := some Q } = 0) := by
  obtain ⟨e, he, hc, gA, d, pA, nA, lA, hp, gen, hg, qA⟩ := h
  have hE := curveGroup_sound he gen hg
  have hgq : e.q • gen = 0 := hE.gen_order
  have hbase : mul (groupOf e c) d (some ((groupOf e c).x, (groupOf e c).y)) = ecOf (d • gen) := by
    have := hm c e he hp d gen
    rwa [hg] at this
  constructor
  · intro e' d' he' hd'
    obtain rfl : e = e' := Option.some.inj (he.symm.trans he')
    obtain rfl : d = d' := Option.some.inj (pA.symm.trans hd')
    have hn0 : d • gen ≠ 0 := fun h0 => nA ((nsmul_eq_zero_iff hE.prime hE.gen_order hE.gen_ne).1 h0)
    have hq0 : e.q • (d • gen) = 0 := by
      rw [← mul_nsmul', mul_nsmul, hgq, nsmul_zero]
    unfold pkey_gost_check
    simp only [gA, qA, pA]
    rw [if_pos ((publicCheck_iff hm he _).2 ⟨hn0, hq0⟩)]
    unfold privateCheck
    rw [hbase]
    have hd1 : 1 ≤ d := Nat.one_le_iff_ne_zero.2 fun h0 => nA (h0 ▸ dvd_zero _)
    simp only [hd1, decide_true, Bool.true_and, Bool.and_true, decide_eq_true_eq]
    split
    · rename_i h; exact ⟨fun _ => h, fun _ => rfl⟩
    · rename_i h; exact ⟨(fun h => by cases h), fun hh => absurd hh h⟩
  · intro Q hQ
    unfold pkey_gost_check
    simp only [gA, pA]
    split
    · rw [if_neg]
      unfold privateCheck
      rw [hbase]
      simp only [Bool.and_eq_true, decide_eq_true_eq]
      rintro ⟨-, rfl⟩
      exact hQ qA
    · rfl

/-! ## Keys of small order -/

/-- The `x` of the point of order 2 of the curves of cofactor 4 (the root of `x³ + a x + b`). -/
def lowX : CurveNid → Nat
  | .tc26_256_paramSetA => 0x100fe73f595ff158e974b44d478d9588744fe5c192ac47ea63075dce7a14aaa
  | .tc26_512_paramSetC => 0x9a628f975594ecefd89ba28a2539ffb79c8ab238aeed0851fa5c1abb02b80b44c6734501b83a011dd625cd0b5145091a6d9acd4b1f5c5b1e21b2b249ddfd1271
  | _ => 0

theorem low_facts : ∀ c ∈ [CurveNid.tc26_256_paramSetA, .tc26_512_paramSetC], ∀ e, curveOfNid c = some e →
    lowX c < e.p ∧ 0 < e.p ∧ 0 ^ 2 % e.p = (lowX c ^ 3 + e.a * lowX c + e.b) % e.p ∧ e.cofactor = 4 ∧ e.q % 2 = 1 ∧
      (BN_num_bytes e.q = 32 ∨ BN_num_bytes e.q = 64) ∧ lowX c < 256 ^ BN_num_bytes e.q := by
  intro c hc e he
  simp only [List.mem_cons, List.not_mem_nil, or_false] at hc
  rcases hc with rfl | rfl
  · simp only [curveOfNid, Option.some.injEq] at he
    subst he
    decide +kernel
  · simp only [curveOfNid, Option.some.injEq] at he
    subst he
    decide +kernel

/-- **C85 (finding)**: on the two curves of cofactor 4 a key of order 2, for which no private key exists, is decoded without complaint
(the decoder checks the equation of the curve only); no secret is ever agreed with it, and only `EVP_PKEY_public_check` tells. -/
theorem C85_low_order_key_decoded (v : KxEnv) (hD : v.der.Sound) (mul : OsslMul) (hm : mul.Sound) (c : CurveNid)
    (hc : c = .tc26_256_paramSetA ∨ c = .tc26_512_paramSetC) (nid : PkeyNid) :
    ∃ pk e, gost_nid2params c = some e ∧ Received v.der pk ∧ pk.nid = nid ∧ pk.group = some (groupOf e c) ∧ pkey_gost_check mul pk = 0 ∧
      (∀ _ : Fact e.p.Prime, ∃ P : CurvePoint (e.a : ZMod e.p) (e.b : ZMod e.p), pk.pub = some (ecOf P) ∧ P ≠ 0 ∧ P + P = 0 ∧
        ∀ gen : CurvePoint (e.a : ZMod e.p) (e.b : ZMod e.p), ecOf gen = some (e.x, e.y) → ∀ d : Nat, d • gen ≠ P) ∧
      (∀ dgst mine ukm, (∃ d, mine.group = some (groupOf e c) ∧ mine.priv = some d) → vkoOn v dgst pk mine ukm = none) := by
  have hmem : c ∈ [CurveNid.tc26_256_paramSetA, .tc26_512_paramSetC] := by simpa using hc
  have hn : c ≠ .tc26_512_paramSetTest := by rcases hc with rfl | rfl <;> decide
  obtain ⟨e, he⟩ : ∃ e, gost_nid2params c = some e := by
    rw [C46_nid_selects]; rcases hc with rfl | rfl <;> exact ⟨_, rfl⟩
  obtain ⟨hx, hp0, hon, hcof, hodd, hlen, hxq⟩ := low_facts c hmem e (by rw [← C46_nid_selects]; exact he)
  have hp : Fact e.p.Prime := ⟨(C46_selected_standard c e he).prime_p⟩
  obtain ⟨P, hP0, hP⟩ := point_of_coords he hx hp0 hon
  have hfill : (fill_GOST_EC_params (cacheAfter []) c).2 = some (groupOf e c) := by
    rw [C46_fill_any_history, ← C46_nid_selects, he]; rfl
  let pk : EvpPkey := ⟨nid, some (groupOf e c), none, some (some (lowX c, 0))⟩
  have hset : (groupOf e c).setAffine (lowX c) 0 = true := by
    unfold EcGroupRec.setAffine
    exact beq_iff_eq.2 hon
  have hdec : Received v.der pk := by
    refine ⟨[], spkiOf v.der nid c (leBytes (BN_num_bytes e.q) (lowX c) ++ leBytes (BN_num_bytes e.q) 0), ?_⟩
    rw [pub_decode_spki v.der hD hfill nid _ (by rcases hlen with h | h <;> rw [h] <;> simp)]
    obtain ⟨h1, h2⟩ := C42_pub_decode_encode (engineGroup v.ws v.ossl (groupOf e c)) (groupOf e c).point (some (lowX c, 0)) (lowX c) 0 rfl hxq (by positivity)
    have h3 := h2 _ h1
    change pub_decode_gost_ec (groupOf e c).point (leBytes (BN_num_bytes e.q) (lowX c) ++ leBytes (BN_num_bytes e.q) 0) = _ at h3
    rw [h3]
    unfold EcGroupRec.point
    rw [if_pos hset]
    show some (EvpPkey.mk nid (some (groupOf e c)) none (some (some (lowX c % e.p, 0 % e.p)))) = _
    rw [Nat.mod_eq_of_lt hx, Nat.mod_eq_of_lt hp0]
  have hPP : ∀ (_ : Fact e.p.Prime) (P : CurvePoint (e.a : ZMod e.p) (e.b : ZMod e.p)), ecOf P = some (lowX c, 0) → P + P = 0 := by
    intro hp P hP
    have hneg : -P = P := by
      apply ecOf_inj
      cases P with
      | zero => rfl
      | some X Y hh =>
        simp only [ecOf, Option.some.injEq, Prod.mk.injEq] at hP
        have hY : Y = 0 := (ZMod.val_eq_zero Y).1 hP.2
        rw [WeierstrassCurve.Affine.Point.neg_some]
        simp only [ecOf, Option.some.injEq, Prod.mk.injEq, true_and, WeierstrassCurve.Affine.negY, hY]
        simp
    nth_rewrite 1 [← hneg]
    exact neg_add_cancel P
  have hqP : ∀ (_ : Fact e.p.Prime) (P : CurvePoint (e.a : ZMod e.p) (e.b : ZMod e.p)), P ≠ 0 → ecOf P = some (lowX c, 0) → e.q • P ≠ 0 := by
    intro hp P h0 hP h
    have h2 := hPP hp P hP
    rw [show e.q = 2 * (e.q / 2) + 1 by omega, succ_nsmul, mul_nsmul, two_nsmul, h2, nsmul_zero, zero_add] at h
    exact h0 h
  refine ⟨pk, e, he, hdec, rfl, rfl, ?_, ?_, ?_⟩
  · have := (publicCheck_iff hm he P).not.2 (fun h => hqP hp P hP0 hP h.2)
    rw [hP] at this
    unfold pkey_gost_check
    simp only [pk]
    rw [if_neg this]
  · intro hp'
    obtain ⟨P', hP0', hP'⟩ := point_of_coords he hx hp0 hon
    refine ⟨P', by rw [hP'], hP0', hPP hp' P' hP', fun gen hg d hd => ?_⟩
    apply hqP hp' P' hP0' hP'
    have hE := curveGroup_sound he gen hg
    have hgq : e.q • gen = 0 := hE.gen_order
    rw [← hd, ← mul_nsmul', mul_nsmul, hgq, nsmul_zero]
  · rintro dgst mine ukm ⟨d, hmg, hmp⟩
    cases hmd : v.md.get dgst with
    | none => unfold vkoOn; simp only [hmd]
    | some md =>
      refine ((C85_agreement_in_subgroup v pk mine c e P d ⟨he, hn, hmg, hmp, rfl, by rw [hP], hP0⟩ dgst md hmd ukm).1).2 (Or.inr (Or.inr ?_))
      have h2 := hPP hp P hP
      rw [hcof, show (4 : Nat) = 2 * 2 from rfl, mul_nsmul, two_nsmul P, h2, nsmul_zero]

/-! ## The hypotheses are met -/

open Classical in
/-- An ideal `EC_POINT_mul`. -/
noncomputable def idealMul : OsslMul := fun g n Q =>
  if h : ∃ (c : CurveNid) (e : EcParams) (_ : Fact e.p.Prime) (P : CurvePoint (e.a : ZMod e.p) (e.b : ZMod e.p)),
      gost_nid2params c = some e ∧ g = groupOf e c ∧ Q = ecOf P then
    haveI := h.choose_spec.choose_spec.choose
    ecOf (n • h.choose_spec.choose_spec.choose_spec.choose)
  else none

theorem idealMul_sound : idealMul.Sound := by
  intro c e he hp n P
  unfold idealMul
  split
  · rename_i h
    generalize_proofs h1 h2 h3
    generalize h.choose = c' at h1 h2 h3
    generalize h1.choose = e' at h2 h3
    obtain ⟨k1, k2, k3⟩ := h3.choose_spec
    generalize h3.choose = P' at k1 k2 k3
    obtain rfl : c = c' := congrArg EcGroupRec.name k2
    obtain rfl : e = e' := Option.some.inj (he.symm.trans k1)
    rw [ecOf_inj k3]
  · rename_i h
    exact absurd ⟨c, e, hp, P, he, rfl, rfl⟩ h

/-- On every curve with a file and for every type of key, a received key, and somebody to agree with it. -/
theorem agreeing_exists (D : KeyDer) (hD : D.Sound) (c : CurveNid) (e : EcParams) (he : gost_nid2params c = some e) (hc : c ≠ .tc26_512_paramSetTest) (nid : PkeyNid)
    [Fact e.p.Prime] (d : Nat) : ∃ (peer : EvpPkey) (P : CurvePoint (e.a : ZMod e.p) (e.b : ZMod e.p)), Received D peer ∧ e.cofactor • P ≠ 0 ∧
      Agreeing c e peer ⟨nid, some (groupOf e c), some d, none⟩ P d := by
  have hpair := pair_exists c e he hc nid
  obtain ⟨octets, -, -, -, -, hdec⟩ := pair_encode hpair D hD .w64 (file_Test .w64) none
  obtain ⟨gen, hg⟩ := base_exists he
  have hE := curveGroup_sound he gen hg
  refine ⟨_, gen, ⟨[], _, hdec []⟩, ?_, he, hc, rfl, rfl, rfl, by rw [hg]; rfl, hE.gen_ne⟩
  intro h0
  exact hE.cofactor ((nsmul_eq_zero_iff hE.prime hE.gen_order hE.gen_ne).1 h0)

/-- A secret is agreed: private numbers 1 and 2, UKM 1. -/
example (c : CurveNid) (e : EcParams) (he : gost_nid2params c = some e) (hc : c ≠ .tc26_512_paramSetTest) :
    ∃ peer k₁ k₂, Received DerKey.coder peer ∧
      vkoOn (witEnv .w64) .r3411_2012_256 peer ⟨.gost2012_256, some (groupOf e c), some 1, none⟩ [1] = some k₁ ∧
      vkoOn (witEnv .w64) .r3411_2012_256 peer ⟨.gost2012_256, some (groupOf e c), some 2, none⟩ [1] = some k₂ ∧
      ∃ m₁ m₂, m₁ ≠ m₂ ∧ k₁ = engineDigests.md256 m₁ ∧ k₂ = engineDigests.md256 m₂ := by
  have hp : Fact e.p.Prime := ⟨(C46_selected_standard c e he).prime_p⟩
  have hq := (cofactor_facts e (selected_mem he)).2.2.2.2
  obtain ⟨peer, P, hr, hP, h1⟩ := agreeing_exists DerKey.coder DerKey.coder_sound c e he hc .gost2012_256 1
  have h2 : Agreeing c e peer ⟨.gost2012_256, some (groupOf e c), some 2, none⟩ P 2 := ⟨he, hc, rfl, rfl, h1.peer_group, h1.peer_pub, h1.nonzero⟩
  have hle : ∀ n : Nat, 0 < n → n ≤ 2 → ¬ e.q ∣ n := fun n h0 h hd => by
    have := Nat.le_of_dvd h0 hd
    omega
  have hu : ¬ e.q ∣ leNat [1] := hle 1 (by decide) (by decide)
  have hmd : (witEnv .w64).md.get .r3411_2012_256 = some engineDigests.md256 := rfl
  have a1 := (C85_agreement_in_subgroup (witEnv .w64) _ _ c e P 1 h1 .r3411_2012_256 _ hmd [1]).1
  have a2 := (C85_agreement_in_subgroup (witEnv .w64) _ _ c e P 2 h2 .r3411_2012_256 _ hmd [1]).1
  obtain ⟨k₁, hk₁⟩ := Option.ne_none_iff_exists'.1 (a1.not.2 (by simp only [not_or]; exact ⟨hu, hle 1 (by decide) (by decide), hP⟩))
  obtain ⟨k₂, hk₂⟩ := Option.ne_none_iff_exists'.1 (a2.not.2 (by simp only [not_or]; exact ⟨hu, hle 2 (by decide) (by decide), hP⟩))
  obtain ⟨x₁, y₁, x₂, y₂, -, -, e1, e2, hne⟩ := C85_no_confinement (witEnv .w64) peer _ _ c e P 1 2 h1 h2
    (by rw [Nat.mod_eq_of_lt (by omega), Nat.mod_eq_of_lt (by omega)]; decide) _ _ hmd [1] hu k₁ k₂ hk₁ hk₂
  exact ⟨peer, k₁, k₂, hr, hk₁, hk₂, _, _, hne, e1, e2⟩

/-- The finding on the 256-bit curve. -/
example : ∃ pk, Received DerKey.coder pk ∧ pkey_gost_check idealMul pk = 0 := by
  obtain ⟨pk, e, -, hr, -, -, h0, -⟩ := C85_low_order_key_decoded (witEnv .w64) DerKey.coder_sound idealMul idealMul_sound _ (Or.inl rfl) .gost2012_256
  exact ⟨pk, hr, h0⟩

/-- Received keys that are accepted. -/
example : ∃ pk, Received DerKey.coder pk ∧ pkey_gost_check idealMul pk = 1 := by
  obtain ⟨e, he⟩ : ∃ e, gost_nid2params .CryptoPro_A = some e := ⟨_, rfl⟩
  have hp : Fact e.p.Prime := ⟨(C46_selected_standard _ e he).prime_p⟩
  obtain ⟨peer, P, hr, -, h1⟩ := agreeing_exists DerKey.coder DerKey.coder_sound _ e he (by decide) .gost2012_256 1
  obtain ⟨c, e', he', hg', h'⟩ := C85_public_check idealMul idealMul_sound _ peer hr
  have hgg : groupOf e .CryptoPro_A = groupOf e' c := Option.some.inj (h1.peer_group.symm.trans hg')
  obtain rfl : CurveNid.CryptoPro_A = c := congrArg EcGroupRec.name hgg
  obtain rfl : e = e' := Option.some.inj (he.symm.trans he')
  obtain ⟨-, -, -, hc⟩ := h' hp
  refine ⟨peer, hr, hc ?_⟩
  rw [C46_nid_selects] at he
  simp only [curveOfNid, Option.some.injEq] at he
  subst he
  rfl

/-- A pair that is accepted. -/
example (c : CurveNid) (e : EcParams) (he : gost_nid2params c = some e) (hc : c ≠ .tc26_512_paramSetTest) :
    pkey_gost_check idealMul ⟨.gost2012_512, some (groupOf e c), some 1, some (some (e.x, e.y))⟩ = 1 := by
  have hq := (cofactor_facts e (selected_mem he)).2.2.2.2
  exact ((C85_pair_check idealMul idealMul_sound c _ (pair_exists c e he hc .gost2012_512)).1 e 1 he rfl).2 (by omega)

end Gost
