import Verif.Lemmas.Ec

/-!
# C38, C39: GOST R 34.10 signing and verification

`E.Sound` says that the point multiplications handed to the signature code compute multiples in a group whose generator
has prime order; see `Verif/Props/Ecp.lean` for the code that does.
-/

namespace Gost

open Spec (leNat beNat leBytes beBytes)

variable {G : Type} [AddCommGroup G]

/-- Signing with one nonce: the standard's signature, or nothing. -/
theorem signLoop_cons (E : EcGroup G) (hE : E.Sound) (d e k : Nat) (hk : k < E.order) (draws : List Nat) :
    signLoop E d e (k :: draws) =
      match E.coords (k • E.gen) with
      | none => none
      | some (X, _) =>
        if X % E.order = 0 then signLoop E d e draws
        else if (d * (X % E.order) % E.order + k * e % E.order) % E.order = 0 then signLoop E d e draws
        else some (X % E.order, (d * (X % E.order) % E.order + k * e % E.order) % E.order) := by
  rw [signLoop]
  simp only [gost_ec_point_mul]
  rw [hE.mulG k (lt_of_lt_of_le hk hE.fits)]
  rfl

/-- A signature produced by the loop is the standard's for one of the nonces drawn. -/
theorem signLoop_sound (E : EcGroup G) (hE : E.Sound) (d e : Nat) (draws : List Nat) (hd : ∀ k ∈ draws, k < E.order)
    (r s : Nat) (h : signLoop E d e draws = some (r, s)) : ∃ k ∈ draws, Spec.SignsWith E.gen E.order E.xc d e k r s := by
  induction draws with
  | nil => simp [signLoop] at h
  | cons k draws ih =>
    rw [signLoop_cons E hE d e k (hd k (by simp))] at h
    have ih' := ih (fun k hk => hd k (by simp [hk]))
    have lift : (∃ k ∈ draws, Spec.SignsWith E.gen E.order E.xc d e k r s) →
        ∃ k' ∈ k :: draws, Spec.SignsWith E.gen E.order E.xc d e k' r s := by
      rintro ⟨k', hk', hs⟩; exact ⟨k', by simp [hk'], hs⟩
    cases hc : E.coords (k • E.gen) with
    | none => simp [hc] at h
    | some xy =>
      obtain ⟨X, Y⟩ := xy
      simp only [hc] at h
      split at h
      · exact lift (ih' h)
      · split at h
        · exact lift (ih' h)
        · rename_i h1 h2
          simp only [Option.some.injEq, Prod.mk.injEq] at h
          refine ⟨k, by simp, ⟨X, by simp [EcGroup.xc, hc], h.1.symm⟩, ?_, ?_, ?_, ?_⟩
          · rw [← h.2, ← h.1]
            simp only [ZMod.natCast_mod, Nat.cast_add, Nat.cast_mul]
            ring
          · rw [← h.2]; exact Nat.mod_lt _ hE.prime.pos
          · rw [← h.1]; exact h1
          · rw [← h.2]; exact h2

/-- **C38**: signing and verifying.  For every private key `d` that is not 0 modulo `q`, every 32- or 64-byte digest and
every sequence of random draws: if signing returns a signature, verification under the public key computed from `d`
accepts it. -/
theorem C38_verify_accepts_signed (E : EcGroup G) (hE : E.Sound) (d : Nat) (hd : ¬ E.order ∣ d)
    (hd2 : d < 256 ^ BN_num_bytes E.field) (dgst : Bytes) (draws : List Nat) (hk : ∀ k ∈ draws, k < E.order) (r s : Nat) (Q : G)
    (hQ : gost_ec_compute_public E d = some Q) (hs : gost_ec_sign E dgst d draws = some (r, s)) :
    gost_ec_verify E dgst r s Q = 1 := by
  have hp := hE.prime
  have : Fact E.order.Prime := ⟨hp⟩
  unfold gost_ec_sign at hs
  split at hs
  case isFalse => simp at hs
  rename_i hl
  obtain ⟨k, hkm, ⟨x, hx, hr⟩, hsv, hsq, hr0, hs0⟩ := signLoop_sound E hE d _ draws hk r s hs
  have hQe : Q = d • E.gen := by
    simp only [gost_ec_compute_public, gost_ec_point_mul, hE.mulG d hd2, Option.some.injEq] at hQ
    exact hQ.symm
  have hQ0 : Q ≠ 0 := by
    rw [hQe]; intro h
    exact hd ((nsmul_eq_zero_iff hp hE.gen_order hE.gen_ne).1 h)
  have hQq : E.order • Q = 0 := by rw [hQe, nsmul_left_comm, hE.gen_order, nsmul_zero]
  obtain ⟨z1, z2, h1, h2, hv⟩ := verify_eq E hE dgst hl r s hr0 (by rw [hr]; exact Nat.mod_lt _ hp.pos) hs0 hsq Q hQ0 hQq
  rw [hv]
  have he0 : (digestNum E.order dgst : ZMod E.order) ≠ 0 := by
    rw [Ne, ZMod.natCast_eq_zero_iff]
    exact Nat.not_dvd_of_pos_of_lt (digestNum_pos _ _) (digestNum_lt _ hp.one_lt _)
  have hkey : z1 • E.gen + z2 • Q = k • E.gen := by
    rw [hQe, ← mul_nsmul, ← add_nsmul]
    apply nsmul_congr hE.gen_order
    apply mul_right_cancel₀ he0
    push_cast
    calc ((z1 : ZMod E.order) + d * z2) * (digestNum E.order dgst)
        = z1 * (digestNum E.order dgst) + d * (z2 * digestNum E.order dgst) := by ring
      _ = s + d * -(r : ZMod E.order) := by rw [h1, h2]
      _ = _ := by rw [hsv]; ring
  rw [hkey]
  unfold EcGroup.xc at hx
  cases hc : E.coords (k • E.gen) with
  | none => simp [hc] at hx
  | some xy =>
    obtain ⟨X, Y⟩ := xy
    simp only [hc, Option.map_some, Option.some.injEq] at hx
    simp [hx, hr]

/-- **C38**: verification accepts exactly the pairs that signing can return: for the public key of `d`, `(r, s)` is
accepted if and only if there is a nonce below `q` with which signing returns `(r, s)`. -/
theorem C38_verify_accepts_exactly_signable (E : EcGroup G) (hE : E.Sound) (d : Nat) (hd : ¬ E.order ∣ d)
    (hd2 : d < 256 ^ BN_num_bytes E.field) (dgst : Bytes) (hl : dgst.length = 32 ∨ dgst.length = 64) (r s : Nat) (Q : G)
    (hQ : gost_ec_compute_public E d = some Q) :
    gost_ec_verify E dgst r s Q = 1 ↔ ∃ k < E.order, gost_ec_sign E dgst d [k] = some (r, s) := by
  have hp := hE.prime
  have : Fact E.order.Prime := ⟨hp⟩
  constructor
  · intro hv
    have hrng : (s : Int) ≠ 0 ∧ (r : Int) ≠ 0 ∧ s < E.order ∧ r < E.order := by
      by_contra hc
      unfold gost_ec_verify at hv
      rw [if_pos (by simp only [Int.natAbs_natCast]; omega)] at hv
      exact absurd hv (by decide)
    obtain ⟨hs0, hr0, hsq, hrq⟩ := hrng
    have hs0' : s ≠ 0 := by exact_mod_cast hs0
    have hr0' : r ≠ 0 := by exact_mod_cast hr0
    have hQe : Q = d • E.gen := by
      simp only [gost_ec_compute_public, gost_ec_point_mul, hE.mulG d hd2, Option.some.injEq] at hQ
      exact hQ.symm
    have hQ0 : Q ≠ 0 := by
      rw [hQe]; intro h
      exact hd ((nsmul_eq_zero_iff hp hE.gen_order hE.gen_ne).1 h)
    have hQq : E.order • Q = 0 := by rw [hQe, nsmul_left_comm, hE.gen_order, nsmul_zero]
    obtain ⟨z1, z2, h1, h2, hve⟩ := verify_eq E hE dgst hl r s hr0' hrq hs0' hsq Q hQ0 hQq
    rw [hve] at hv
    set k := (z1 + d * z2) % E.order with hkdef
    have hkey : z1 • E.gen + z2 • Q = k • E.gen := by
      rw [hQe, ← mul_nsmul, ← add_nsmul]
      apply nsmul_congr hE.gen_order
      rw [hkdef, ZMod.natCast_mod]
    rw [hkey] at hv
    refine ⟨k, Nat.mod_lt _ hp.pos, ?_⟩
    unfold gost_ec_sign
    rw [if_pos hl, signLoop_cons E hE _ _ _ (Nat.mod_lt _ hp.pos)]
    cases hc : E.coords (k • E.gen) with
    | none => simp [hc] at hv
    | some xy =>
      obtain ⟨X, Y⟩ := xy
      simp only [hc] at hv
      have hX : X % E.order = r := by
        by_contra hne
        simp [hne] at hv
      have hS : (d * r % E.order + k * digestNum E.order dgst % E.order) % E.order = s := by
        have : (((d * r % E.order + k * digestNum E.order dgst % E.order) % E.order : Nat) : ZMod E.order) = (s : ZMod E.order) := by
          simp only [ZMod.natCast_mod, Nat.cast_add, Nat.cast_mul]
          rw [hkdef, ZMod.natCast_mod]
          push_cast
          calc (d : ZMod E.order) * r + (z1 + d * z2) * digestNum E.order dgst
              = d * r + (z1 * digestNum E.order dgst + d * (z2 * digestNum E.order dgst)) := by ring
            _ = s := by rw [h1, h2]; ring
        rw [ZMod.natCast_eq_natCast_iff] at this
        have h3 := this
        unfold Nat.ModEq at h3
        rw [Nat.mod_mod, Nat.mod_eq_of_lt hsq] at h3
        exact h3
      show (if X % E.order = 0 then _ else _) = _
      rw [hX, hS, if_neg hr0', if_neg hs0']
  · rintro ⟨k, hk, hs⟩
    exact C38_verify_accepts_signed E hE d hd hd2 dgst [k] (by simpa using hk) r s Q hQ hs

/-- **C38**: verification is the standard's: for a public key in the group generated and a 32- or 64-byte digest it
accepts exactly when GOST R 34.10-2012, 6.2 does. -/
theorem C38_verify_is_standard (E : EcGroup G) (hE : E.Sound) (dgst : Bytes) (hl : dgst.length = 32 ∨ dgst.length = 64)
    (r s : Int) (Q : G) (hQ : Q ≠ 0) (hQq : E.order • Q = 0) :
    gost_ec_verify E dgst r s Q = 1 ↔
      Spec.Verifies E.gen E.order E.xc Q (Spec.digestNumber E.order dgst) r s := by
  have hp := hE.prime
  have : Fact E.order.Prime := ⟨hp⟩
  by_cases hrng : 0 < r ∧ r < E.order ∧ 0 < s ∧ s < E.order
  · obtain ⟨a, b, c, f⟩ := hrng
    lift r to ℕ using a.le
    lift s to ℕ using c.le
    have hr0 : r ≠ 0 := by omega
    have hs0 : s ≠ 0 := by omega
    have hrq : r < E.order := by omega
    have hsq : s < E.order := by omega
    obtain ⟨z1, z2, h1, h2, hv⟩ := verify_eq E hE dgst hl r s hr0 hrq hs0 hsq Q hQ hQq
    rw [hv, ← digestNum_eq]
    have he0 : (digestNum E.order dgst : ZMod E.order) ≠ 0 := by
      rw [Ne, ZMod.natCast_eq_zero_iff]
      exact Nat.not_dvd_of_pos_of_lt (digestNum_pos _ _) (digestNum_lt _ hp.one_lt _)
    have key : ∀ w1 w2 : ℕ, (w1 : ZMod E.order) * digestNum E.order dgst = s →
        (w2 : ZMod E.order) * digestNum E.order dgst = -(r : ZMod E.order) →
        w1 • E.gen + w2 • Q = z1 • E.gen + z2 • Q := by
      intro w1 w2 g1 g2
      rw [nsmul_congr hE.gen_order (a := w1) (b := z1) (mul_right_cancel₀ he0 (by rw [g1, h1])),
        nsmul_congr hQq (a := w2) (b := z2) (mul_right_cancel₀ he0 (by rw [g2, h2]))]
    unfold Spec.Verifies
    simp only [a, b, c, f, true_and, Int.cast_natCast]
    constructor
    · intro h
      refine ⟨z1, z2, h1, h2, ?_⟩
      cases hc : E.coords (z1 • E.gen + z2 • Q) with
      | none => simp [hc] at h
      | some xy =>
        obtain ⟨X, Y⟩ := xy
        simp only [hc] at h
        refine ⟨X, by simp [EcGroup.xc, hc], ?_⟩
        by_contra hne
        rw [if_pos (by exact_mod_cast hne)] at h
        exact absurd h (by decide)
    · rintro ⟨w1, w2, g1, g2, x, hx, hxr⟩
      rw [key w1 w2 g1 g2] at hx
      unfold EcGroup.xc at hx
      cases hc : E.coords (z1 • E.gen + z2 • Q) with
      | none => simp [hc] at hx
      | some xy =>
        obtain ⟨X, Y⟩ := xy
        simp only [hc, Option.map_some, Option.some.injEq] at hx
        have : X % E.order = r := by rw [hx]; exact_mod_cast hxr
        simp [this]
  · have : gost_ec_verify E dgst r s Q = 0 := by
      unfold gost_ec_verify
      rw [if_pos (by omega)]
    rw [this]
    constructor
    · intro h; exact absurd h (by decide)
    · rintro ⟨a, b, c, f, _⟩; exact absurd ⟨a, b, c, f⟩ hrng

/-- **C39**: a signature with a component that is not in `1..q-1` is rejected, whatever the key and digest. -/
theorem C39_out_of_range_rejected {G : Type} (E : EcGroup G) (dgst : Bytes) (r s : Int) (Q : G)
    (h : r ≤ 0 ∨ (E.order : Int) ≤ r ∨ s ≤ 0 ∨ (E.order : Int) ≤ s) : gost_ec_verify E dgst r s Q = 0 := by
  unfold gost_ec_verify
  rw [if_pos (by omega)]

/-- **C39**: signing only returns components in `1..q-1`. -/
theorem C39_signature_in_range (E : EcGroup G) (hE : E.Sound) (d : Nat) (dgst : Bytes) (draws : List Nat)
    (hk : ∀ k ∈ draws, k < E.order) (r s : Nat) (hs : gost_ec_sign E dgst d draws = some (r, s)) :
    0 < r ∧ r < E.order ∧ 0 < s ∧ s < E.order := by
  unfold gost_ec_sign at hs
  split at hs
  case isFalse => simp at hs
  obtain ⟨k, hkm, ⟨x, hx, hr⟩, hsv, hsq, hr0, hs0⟩ := signLoop_sound E hE d _ draws hk r s hs
  exact ⟨Nat.pos_of_ne_zero hr0, by rw [hr]; exact Nat.mod_lt _ hE.prime.pos, Nat.pos_of_ne_zero hs0, hsq⟩

/-- **C39**: a digest that is 0 modulo `q` is treated like one that is 1 modulo `q`, in signing and in verification. -/
theorem C39_zero_digest_is_one {G : Type} (E : EcGroup G) (dgst one : Bytes) (hl : dgst.length = one.length)
    (hz : leNat dgst % E.order = 0) (ho : leNat one % E.order = 1) (d : Nat) (draws : List Nat) (r s : Int) (Q : G) :
    gost_ec_sign E dgst d draws = gost_ec_sign E one d draws ∧
      gost_ec_verify E dgst r s Q = gost_ec_verify E one r s Q := by
  have he : digestNum E.order dgst = digestNum E.order one := by
    simp [digestNum, hz, ho]
  constructor
  · simp only [gost_ec_sign, he, hl]
  · simp only [gost_ec_verify, he, hl]

/-- **C38**: key generation returns a private key in `1..q-1` (for draws below `q`, as `BN_rand_range` delivers them)
together with its public key, a finite point. -/
theorem C38_keygen (E : EcGroup G) (hE : E.Sound) (draws : List Nat) (hk : ∀ k ∈ draws, k < E.order) (d : Nat) (Q : G)
    (h : gost_ec_keygen E draws = some (d, Q)) : 0 < d ∧ d < E.order ∧ Q = d • E.gen ∧ Q ≠ 0 := by
  have hloop : ∀ l : List Nat, (∀ k ∈ l, k < E.order) → ∀ d, keygenLoop l = some d → 0 < d ∧ d < E.order := by
    intro l
    induction l with
    | nil => intro _ d h; simp [keygenLoop] at h
    | cons a l ih =>
      intro hl d h
      simp only [keygenLoop] at h
      split at h
      · exact ih (fun k hk => hl k (by simp [hk])) d h
      · simp only [Option.some.injEq] at h
        have := hl a (by simp)
        omega
  unfold gost_ec_keygen at h
  cases hl : keygenLoop draws with
  | none => simp [hl] at h
  | some d' =>
    obtain ⟨h0, h1⟩ := hloop draws hk d' hl
    simp only [hl, gost_ec_compute_public, gost_ec_point_mul, hE.mulG d' (lt_of_lt_of_le h1 hE.fits)] at h
    simp only [Option.some.injEq, Prod.mk.injEq] at h
    obtain ⟨rfl, rfl⟩ := h
    refine ⟨h0, h1, rfl, ?_⟩
    intro h2
    have := (nsmul_eq_zero_iff hE.prime hE.gen_order hE.gen_ne).1 h2
    exact Nat.not_dvd_of_pos_of_lt h0 h1 this

/-! ## The hypotheses can be met: a group of order 7 -/

/-- A toy group: `ZMod 7` with the value of a residue as both coordinates. -/
def toyGroup : EcGroup (ZMod 7) where
  gen := 1
  order := 7
  field := 11
  cofactor := 1
  coords P := if P = 0 then none else some (P.val, P.val)
  mulTwo n Q m := some (n • 1 + m • Q)
  mulG n := some (n • 1)
  mulVar Q m := some ((1 * m) • Q)

theorem toy_sound : toyGroup.Sound where
  prime := by decide
  gen_order := by decide
  gen_ne := by decide
  fits := by
    show 7 ≤ 256 ^ BN_num_bytes 11
    have : BN_num_bytes 11 = 1 := by unfold BN_num_bytes; simp; unfold BN_num_bytes; simp
    rw [this]; decide
  coords_zero := by decide
  coords_some := by
    intro P hP
    refine ⟨P.val, P.val, ?_, ?_, ?_⟩
    · show (if P = 0 then none else some (P.val, P.val)) = _
      rw [if_neg hP]
    · exact lt_trans (ZMod.val_lt P) (by decide)
    · exact lt_trans (ZMod.val_lt P) (by decide)
  mulG _ _ := rfl
  mulTwo _ _ _ _ _ _ _ := rfl
  mulVar _ _ _ _ := rfl
  cofactor := by decide

/-- Signing in the toy group: private key 3, digest number 5 (from 32 bytes); the signature verifies. -/
example : gost_ec_sign toyGroup (5 :: zeros 31) 3 [2, 5] = some (2, 2) ∧ gost_ec_verify toyGroup (5 :: zeros 31) 2 2 3 = 1 := by
  decide +kernel

end Gost
