import Verif.Lemmas.Ecp.CryptoPro_A_Curve
import Verif.Lemmas.Ecp.CryptoPro_A_32_Curve
import Verif.Lemmas.Ecp.CryptoPro_B_Curve
import Verif.Lemmas.Ecp.CryptoPro_B_32_Curve
import Verif.Lemmas.Ecp.CryptoPro_C_Curve
import Verif.Lemmas.Ecp.CryptoPro_C_32_Curve
import Verif.Lemmas.Ecp.Test_Curve
import Verif.Lemmas.Ecp.Test_32_Curve
import Verif.Lemmas.Ecp.tc26_256_paramSetA_Curve
import Verif.Lemmas.Ecp.tc26_256_paramSetA_32_Curve
import Verif.Lemmas.Ecp.tc26_512_paramSetA_Curve
import Verif.Lemmas.Ecp.tc26_512_paramSetA_32_Curve
import Verif.Lemmas.Ecp.tc26_512_paramSetB_Curve
import Verif.Lemmas.Ecp.tc26_512_paramSetB_32_Curve
import Verif.Lemmas.Ecp.tc26_512_paramSetC_Curve
import Verif.Lemmas.Ecp.tc26_512_paramSetC_32_Curve
import Verif.Model.EcpFiles
import Verif.Props.EcpGroup
import Verif.Props.EcParams
import Verif.Props.EcSign
import Verif.Props.EcKeyx
import Verif.Props.EcEncode

/-!
# C45: the eight curve files

For every name of a curve that has a file, in both word sizes, with the limb arithmetic and tables of the files: the three
multiplications chosen by `gost_ec_point_mul` compute in the group of points of the curve; signatures and key agreement made
with them work.
-/

namespace Gost

open WeierstrassCurve
open Spec (leNat leBytes ecOf onCurve)
open Fiat (EPt WPt ePt_of cast_of_mod)

/-- What the functions of a curve file are to compute in the group of points of `y² = x³ + a x + b` over the field with `p`
elements: multiples of the base point, cofactor multiples of any point, and sums of multiples for points in the group of order
`q`.  Infinity as argument and numbers that do not fit the buffers are refused. -/
structure EcpFile.Computes (F : EcpFile) (p q cofactor : Nat) [Fact p.Prime] (a b : ZMod p) (gen : CurvePoint a b) : Prop where
  mulG : ∀ k, F.mulG (onCurve a b) k = if k < 256 ^ BN_num_bytes p then some (ecOf (k • gen)) else none
  mul : ∀ (P : CurvePoint a b) k, F.mul (onCurve a b) (ecOf P) k =
    if P ≠ 0 ∧ k < 256 ^ BN_num_bytes p then some (ecOf ((cofactor * k) • P)) else none
  mulTwo : ∀ (P : CurvePoint a b) k m, q • P = 0 → F.mulTwo (onCurve a b) k (ecOf P) m =
    if P ≠ 0 ∧ k < 256 ^ BN_num_bytes p ∧ m < 256 ^ BN_num_bytes p then some (ecOf (k • gen + m • P)) else none

section
variable {K : Type} {O : FeOps K} {p nb : Nat} [Fact p.Prime] {ok : K → Prop} {val : K → ZMod p} {n rows cols : Nat} {q : Nat}

theorem EcpFile.Computes.of_w {W : WProgs} {a b : ZMod p} {lut : Nat → Nat → AffW K} {x y : Nat} {gen : CurvePoint a b} (hg : ecOf gen = some (x, y))
    (h : WPt a b x y gen → WCurve O W lut p nb n rows cols ok val a b gen) (hnb : BN_num_bytes p = nb) :
    (EcpFile.of O (wCode O W lut nb n rows cols)).Computes p q 1 a b gen := by
  have hw : WPt a b x y gen := by
    cases gen with
    | zero => cases hg
    | some X Y hn =>
      simp only [ecOf, Option.some.injEq, Prod.mk.injEq] at hg
      obtain ⟨rfl, rfl⟩ := hg
      have e1 := ZMod.natCast_zmod_val X
      have e2 := ZMod.natCast_zmod_val Y
      refine ⟨by rw [e1, e2]; exact hn, ?_⟩
      congr 1 <;> exact Eq.symm (by assumption)
  subst hnb
  exact ⟨C45_mul_g (h hw), fun P k => by rw [one_mul]; exact C45_mul (h hw) P k, fun P k m _ => C45_mul_two (h hw) P k m⟩

/-- The Edwards coordinates of the base point. -/
def edBaseB (p S T x y u v : Nat) : Bool :=
  (y % p != 0) && ((x + S) % p != T % p) && Nat.beq ((u * y + T) % p) (x % p) &&
    Nat.beq ((v * (x + S) + T + S) % p) ((x + v * T) % p)

theorem EcpFile.Computes.of_e {S T : Nat} {d : ZMod p} {lut : Nat → Nat → AffE K} {x y u v : Nat} {a b : ZMod p}
    (ha : edA (S : ZMod p) (T : ZMod p) = a) (hb : edB (S : ZMod p) (T : ZMod p) = b) {gen : CurvePoint a b} (hg : ecOf gen = some (x, y)) (hq : q • gen = 0)
    (h : ∀ g : CurvePoint (edA (S : ZMod p) (T : ZMod p)) (edB (S : ZMod p) (T : ZMod p)), EPt (S : ZMod p) (T : ZMod p) u v g → q • g = 0 →
      ECurve O lut p nb n rows cols ok val (S : ZMod p) (T : ZMod p) d g q)
    (hbase : edBaseB p S T x y u v = true) (hnb : BN_num_bytes p = nb) :
    (EcpFile.of O (eCode O lut nb n rows cols)).Computes p q 4 a b gen := by
  subst ha hb hnb
  simp only [edBaseB, Bool.and_eq_true, bne_iff_ne, ne_eq, Nat.beq_eq] at hbase
  obtain ⟨⟨⟨h1, h2⟩, h3⟩, h4⟩ := hbase
  have hE : EPt (S : ZMod p) (T : ZMod p) u v gen := by
    cases gen with
    | zero => cases hg
    | some X Y hn =>
      simp only [ecOf, Option.some.injEq, Prod.mk.injEq] at hg
      obtain ⟨rfl, rfl⟩ := hg
      have e1 := ZMod.natCast_zmod_val X
      have e2 := ZMod.natCast_zmod_val Y
      have e3 := cast_of_mod h3
      have e4 := cast_of_mod h4
      push_cast at e3 e4
      rw [e1, e2] at e3
      rw [e1] at e4
      have hn' : (shortW (edA (S : ZMod p) (T : ZMod p)) (edB (S : ZMod p) (T : ZMod p))).toAffine.Nonsingular ((X.val : Nat) : ZMod p) ((Y.val : Nat) : ZMod p) := by
        rw [e1, e2]; exact hn
      have hk := ePt_of (u := u) (v := v) hn' ?_ ?_ ?_ ?_
      · have : (Affine.Point.some X Y hn : CurvePoint (edA (S : ZMod p) (T : ZMod p)) (edB (S : ZMod p) (T : ZMod p))) = .some _ _ hn' := by
          congr 1 <;> exact Eq.symm (by assumption)
        rw [this]; exact hk
      · rw [e2]
        intro hc
        apply h1
        rw [hc, ZMod.val_zero, Nat.zero_mod]
      · rw [e1]
        intro hc
        apply h2
        have : ((X.val + S : Nat) : ZMod p) = (T : Nat) := by
          push_cast; rw [e1]; linear_combination hc
        exact (ZMod.natCast_eq_natCast_iff' _ _ _).1 this
      · rw [e1, e2]; linear_combination e3
      · rw [e1]; linear_combination e4
  have h' := h gen hE hq
  exact ⟨C45_ed_mul_g h', C45_ed_mul h', fun P k m hP => C45_ed_mul_two_subgroup h' P k m hP⟩

end

theorem numBytes_eq {p nb : Nat} (h1 : 256 ^ nb ≤ p) (h2 : p < 256 ^ (nb + 1)) : BN_num_bytes p = nb + 1 := by
  have a1 := (num_bytes_le_iff p (nb + 1)).2 h2
  have a2 : ¬ BN_num_bytes p ≤ nb := fun h => absurd ((num_bytes_le_iff p nb).1 h) (by omega)
  omega

theorem numBytes_32 {p : Nat} (h1 : 256 ^ 31 ≤ p) (h2 : p < 256 ^ 32) : BN_num_bytes p = 32 := numBytes_eq h1 h2
theorem numBytes_64 {p : Nat} (h1 : 256 ^ 63 ≤ p) (h2 : p < 256 ^ 64) : BN_num_bytes p = 64 := numBytes_eq h1 h2

theorem gen_order {e : EcParams} [Fact e.p.Prime] (h : Spec.GostCurve e.p e.a e.b e.q e.x e.y e.cofactor) {gen : CurvePoint (e.a : ZMod e.p) (e.b : ZMod e.p)}
    (hg : ecOf gen = some (e.x, e.y)) : e.q • gen = 0 := by
  obtain ⟨hn, ho⟩ := h.point inferInstance
  have e1 : (Affine.Point.some _ _ hn : CurvePoint (e.a : ZMod e.p) (e.b : ZMod e.p)) = gen := by
    cases gen with
    | zero => cases hg
    | some X Y hn' =>
      simp only [ecOf, Option.some.injEq, Prod.mk.injEq] at hg
      have e1 := ZMod.natCast_zmod_val X
      have e2 := ZMod.natCast_zmod_val Y
      rw [hg.1] at e1
      rw [hg.2] at e2
      congr 1
  rw [← e1]; exact ho

theorem file_CryptoPro_A_ok (ws : WordSize) [Fact ec_CryptoPro_A.p.Prime] {gen : CurvePoint (ec_CryptoPro_A.a : ZMod ec_CryptoPro_A.p) (ec_CryptoPro_A.b : ZMod ec_CryptoPro_A.p)} (hg : ecOf gen = some (ec_CryptoPro_A.x, ec_CryptoPro_A.y)) :
    (file_CryptoPro_A ws).Computes ec_CryptoPro_A.p ec_CryptoPro_A.q ec_CryptoPro_A.cofactor (ec_CryptoPro_A.a : ZMod ec_CryptoPro_A.p) (ec_CryptoPro_A.b : ZMod ec_CryptoPro_A.p) gen := by
  cases ws
  · exact .of_w hg (Ecp_CryptoPro_A.curve gen) (numBytes_32 (by decide +kernel) (by decide +kernel))
  · exact .of_w hg (Ecp_CryptoPro_A_32.curve gen) (numBytes_32 (by decide +kernel) (by decide +kernel))

theorem file_CryptoPro_B_ok (ws : WordSize) [Fact ec_CryptoPro_B.p.Prime] {gen : CurvePoint (ec_CryptoPro_B.a : ZMod ec_CryptoPro_B.p) (ec_CryptoPro_B.b : ZMod ec_CryptoPro_B.p)} (hg : ecOf gen = some (ec_CryptoPro_B.x, ec_CryptoPro_B.y)) :
    (file_CryptoPro_B ws).Computes ec_CryptoPro_B.p ec_CryptoPro_B.q ec_CryptoPro_B.cofactor (ec_CryptoPro_B.a : ZMod ec_CryptoPro_B.p) (ec_CryptoPro_B.b : ZMod ec_CryptoPro_B.p) gen := by
  cases ws
  · exact .of_w hg (Ecp_CryptoPro_B.curve gen) (numBytes_32 (by decide +kernel) (by decide +kernel))
  · exact .of_w hg (Ecp_CryptoPro_B_32.curve gen) (numBytes_32 (by decide +kernel) (by decide +kernel))

theorem file_CryptoPro_C_ok (ws : WordSize) [Fact ec_CryptoPro_C.p.Prime] {gen : CurvePoint (ec_CryptoPro_C.a : ZMod ec_CryptoPro_C.p) (ec_CryptoPro_C.b : ZMod ec_CryptoPro_C.p)} (hg : ecOf gen = some (ec_CryptoPro_C.x, ec_CryptoPro_C.y)) :
    (file_CryptoPro_C ws).Computes ec_CryptoPro_C.p ec_CryptoPro_C.q ec_CryptoPro_C.cofactor (ec_CryptoPro_C.a : ZMod ec_CryptoPro_C.p) (ec_CryptoPro_C.b : ZMod ec_CryptoPro_C.p) gen := by
  cases ws
  · exact .of_w hg (Ecp_CryptoPro_C.curve gen) (numBytes_32 (by decide +kernel) (by decide +kernel))
  · exact .of_w hg (Ecp_CryptoPro_C_32.curve gen) (numBytes_32 (by decide +kernel) (by decide +kernel))

theorem file_Test_ok (ws : WordSize) [Fact ec_Test.p.Prime] {gen : CurvePoint (ec_Test.a : ZMod ec_Test.p) (ec_Test.b : ZMod ec_Test.p)} (hg : ecOf gen = some (ec_Test.x, ec_Test.y)) :
    (file_Test ws).Computes ec_Test.p ec_Test.q ec_Test.cofactor (ec_Test.a : ZMod ec_Test.p) (ec_Test.b : ZMod ec_Test.p) gen := by
  cases ws
  · exact .of_w hg (Ecp_Test.curve gen) (numBytes_32 (by decide +kernel) (by decide +kernel))
  · exact .of_w hg (Ecp_Test_32.curve gen) (numBytes_32 (by decide +kernel) (by decide +kernel))

theorem file_tc26_256_paramSetA_ok (ws : WordSize) [Fact ec_tc26_256_paramSetA.p.Prime] {gen : CurvePoint (ec_tc26_256_paramSetA.a : ZMod ec_tc26_256_paramSetA.p) (ec_tc26_256_paramSetA.b : ZMod ec_tc26_256_paramSetA.p)} (hg : ecOf gen = some (ec_tc26_256_paramSetA.x, ec_tc26_256_paramSetA.y)) :
    (file_tc26_256_paramSetA ws).Computes ec_tc26_256_paramSetA.p ec_tc26_256_paramSetA.q ec_tc26_256_paramSetA.cofactor (ec_tc26_256_paramSetA.a : ZMod ec_tc26_256_paramSetA.p) (ec_tc26_256_paramSetA.b : ZMod ec_tc26_256_paramSetA.p) gen := by
  cases ws
  · exact .of_e Ecp_tc26_256_paramSetA.ed_ok.2.2.1 Ecp_tc26_256_paramSetA.ed_ok.2.2.2 hg (gen_order gostCurve_tc26_256_paramSetA hg) Ecp_tc26_256_paramSetA.curve (by decide +kernel) (numBytes_32 (by decide +kernel) (by decide +kernel))
  · exact .of_e Ecp_tc26_256_paramSetA_32.ed_ok.2.2.1 Ecp_tc26_256_paramSetA_32.ed_ok.2.2.2 hg (gen_order gostCurve_tc26_256_paramSetA hg) Ecp_tc26_256_paramSetA_32.curve (by decide +kernel) (numBytes_32 (by decide +kernel) (by decide +kernel))

theorem file_tc26_512_paramSetA_ok (ws : WordSize) [Fact ec_tc26_512_paramSetA.p.Prime] {gen : CurvePoint (ec_tc26_512_paramSetA.a : ZMod ec_tc26_512_paramSetA.p) (ec_tc26_512_paramSetA.b : ZMod ec_tc26_512_paramSetA.p)} (hg : ecOf gen = some (ec_tc26_512_paramSetA.x, ec_tc26_512_paramSetA.y)) :
    (file_tc26_512_paramSetA ws).Computes ec_tc26_512_paramSetA.p ec_tc26_512_paramSetA.q ec_tc26_512_paramSetA.cofactor (ec_tc26_512_paramSetA.a : ZMod ec_tc26_512_paramSetA.p) (ec_tc26_512_paramSetA.b : ZMod ec_tc26_512_paramSetA.p) gen := by
  cases ws
  · exact .of_w hg (Ecp_tc26_512_paramSetA.curve gen) (numBytes_64 (by decide +kernel) (by decide +kernel))
  · exact .of_w hg (Ecp_tc26_512_paramSetA_32.curve gen) (numBytes_64 (by decide +kernel) (by decide +kernel))

theorem file_tc26_512_paramSetB_ok (ws : WordSize) [Fact ec_tc26_512_paramSetB.p.Prime] {gen : CurvePoint (ec_tc26_512_paramSetB.a : ZMod ec_tc26_512_paramSetB.p) (ec_tc26_512_paramSetB.b : ZMod ec_tc26_512_paramSetB.p)} (hg : ecOf gen = some (ec_tc26_512_paramSetB.x, ec_tc26_512_paramSetB.y)) :
    (file_tc26_512_paramSetB ws).Computes ec_tc26_512_paramSetB.p ec_tc26_512_paramSetB.q ec_tc26_512_paramSetB.cofactor (ec_tc26_512_paramSetB.a : ZMod ec_tc26_512_paramSetB.p) (ec_tc26_512_paramSetB.b : ZMod ec_tc26_512_paramSetB.p) gen := by
  cases ws
  · exact .of_w hg (Ecp_tc26_512_paramSetB.curve gen) (numBytes_64 (by decide +kernel) (by decide +kernel))
  · exact .of_w hg (Ecp_tc26_512_paramSetB_32.curve gen) (numBytes_64 (by decide +kernel) (by decide +kernel))

theorem file_tc26_512_paramSetC_ok (ws : WordSize) [Fact ec_tc26_512_paramSetC.p.Prime] {gen : CurvePoint (ec_tc26_512_paramSetC.a : ZMod ec_tc26_512_paramSetC.p) (ec_tc26_512_paramSetC.b : ZMod ec_tc26_512_paramSetC.p)} (hg : ecOf gen = some (ec_tc26_512_paramSetC.x, ec_tc26_512_paramSetC.y)) :
    (file_tc26_512_paramSetC ws).Computes ec_tc26_512_paramSetC.p ec_tc26_512_paramSetC.q ec_tc26_512_paramSetC.cofactor (ec_tc26_512_paramSetC.a : ZMod ec_tc26_512_paramSetC.p) (ec_tc26_512_paramSetC.b : ZMod ec_tc26_512_paramSetC.p) gen := by
  cases ws
  · exact .of_e Ecp_tc26_512_paramSetC.ed_ok.2.2.1 Ecp_tc26_512_paramSetC.ed_ok.2.2.2 hg (gen_order gostCurve_tc26_512_paramSetC hg) Ecp_tc26_512_paramSetC.curve (by decide +kernel) (numBytes_64 (by decide +kernel) (by decide +kernel))
  · exact .of_e Ecp_tc26_512_paramSetC_32.ed_ok.2.2.1 Ecp_tc26_512_paramSetC_32.ed_ok.2.2.2 hg (gen_order gostCurve_tc26_512_paramSetC hg) Ecp_tc26_512_paramSetC_32.curve (by decide +kernel) (numBytes_64 (by decide +kernel) (by decide +kernel))

/-- **C45**: under every name of a curve that has a file, with 64-bit and with 32-bit words, the three multiplications chosen by
`gost_ec_point_mul` compute in the group of points of the curve the name stands for (cofactor included). -/
theorem C45_every_curve (ws : WordSize) (ossl : EcpFile) (nid : CurveNid) (e : EcParams) (h : gost_nid2params nid = some e)
    (hn : nid ≠ .tc26_512_paramSetTest) [Fact e.p.Prime] (gen : CurvePoint (e.a : ZMod e.p) (e.b : ZMod e.p))
    (hg : ecOf gen = some (e.x, e.y)) :
    (EcpFile.mk (switchMulTwo ws ossl nid) (switchMul ws ossl nid) (switchMulG ws ossl nid)).Computes e.p e.q e.cofactor
      (e.a : ZMod e.p) (e.b : ZMod e.p) gen := by
  rw [C46_nid_selects] at h
  cases nid <;> simp only [curveOfNid, Option.some.injEq, reduceCtorEq] at h <;> subst h
  · exact file_Test_ok ws hg
  · exact file_CryptoPro_A_ok ws hg
  · exact file_CryptoPro_B_ok ws hg
  · exact file_CryptoPro_C_ok ws hg
  · have i : Fact ec_CryptoPro_A.p.Prime := inferInstanceAs (Fact ec_CryptoPro_XchA.p.Prime)
    exact file_CryptoPro_A_ok ws hg
  · have i : Fact ec_CryptoPro_C.p.Prime := inferInstanceAs (Fact ec_CryptoPro_XchB.p.Prime)
    exact file_CryptoPro_C_ok ws hg
  · exact file_tc26_256_paramSetA_ok ws hg
  · exact file_CryptoPro_A_ok ws hg
  · exact file_CryptoPro_B_ok ws hg
  · exact file_CryptoPro_C_ok ws hg
  · exact absurd rfl hn
  · exact file_tc26_512_paramSetA_ok ws hg
  · exact file_tc26_512_paramSetB_ok ws hg
  · exact file_tc26_512_paramSetC_ok ws hg

/-- The multiplications for the curve without a file are OpenSSL's. -/
theorem switch_default (ws : WordSize) (ossl : EcpFile) :
    EcpFile.mk (switchMulTwo ws ossl .tc26_512_paramSetTest) (switchMul ws ossl .tc26_512_paramSetTest) (switchMulG ws ossl .tc26_512_paramSetTest) = ossl := rfl

/-! ## Signing and key agreement over the files -/

/-- A group `E'` doing the same as `E` on the images of `E`'s points. -/
structure EcGroup.Via {G G' : Type} [AddCommGroup G] (E : EcGroup G) (E' : EcGroup G') (f : G → G') : Prop where
  order : E'.order = E.order
  field : E'.field = E.field
  cofactor : E'.cofactor = E.cofactor
  coords : ∀ P, E'.coords (f P) = E.coords P
  mulG : ∀ n, E'.mulG n = (E.mulG n).map f
  mulVar : ∀ Q m, E'.mulVar (f Q) m = (E.mulVar Q m).map f
  mulTwo : ∀ n Q m, E.order • Q = 0 → E'.mulTwo n (f Q) m = (E.mulTwo n Q m).map f

section
variable {G G' : Type} [AddCommGroup G] {E : EcGroup G} {E' : EcGroup G'} {f : G → G'}

theorem EcGroup.Via.sign (h : E.Via E' f) (dgst : Bytes) (d : Nat) (draws : List Nat) : gost_ec_sign E' dgst d draws = gost_ec_sign E dgst d draws := by
  unfold gost_ec_sign
  rw [h.order]
  split
  case isFalse => rfl
  generalize digestNum E.order dgst = e
  induction draws with
  | nil => rfl
  | cons k draws ih =>
    simp only [signLoop, gost_ec_point_mul, h.mulG]
    cases E.mulG k with
    | none => rfl
    | some C => simp only [Option.map_some, h.coords, h.order, ih]

theorem EcGroup.Via.verify (h : E.Via E' f) (dgst : Bytes) (r s : Int) (Q : G) (hQ : E.order • Q = 0) :
    gost_ec_verify E' dgst r s (f Q) = gost_ec_verify E dgst r s Q := by
  unfold gost_ec_verify
  rw [h.order]
  simp only [gost_ec_point_mul, h.mulTwo _ Q _ hQ]
  congr 2
  split
  · rfl
  · rename_i v _
    cases E.mulTwo (s.natAbs * v % E.order) Q ((E.order - r.natAbs) * v % E.order) with
    | none => rfl
    | some C => simp only [Option.map_some, h.coords]

theorem EcGroup.Via.public (h : E.Via E' f) (d : Nat) : gost_ec_compute_public E' d = (gost_ec_compute_public E d).map f := by
  simp only [gost_ec_compute_public, gost_ec_point_mul, h.mulG]

theorem EcGroup.Via.keygen (h : E.Via E' f) (draws : List Nat) : gost_ec_keygen E' draws = (gost_ec_keygen E draws).map fun t => (t.1, f t.2) := by
  unfold gost_ec_keygen
  cases keygenLoop draws with
  | none => rfl
  | some d =>
    simp only [h.public]
    cases gost_ec_compute_public E d <;> rfl

theorem EcGroup.Via.vko (h : E.Via E' f) (md : Bytes → Bytes) (Q : G) (d : Nat) (ukm : Bytes) :
    VKO_compute_key E' md (f Q) d ukm = VKO_compute_key E md Q d ukm := by
  unfold VKO_compute_key
  simp only [gost_ec_point_mul, h.mulVar, h.order, h.field]
  cases E.mulVar Q (leNat ukm * d % E.order) with
  | none => rfl
  | some P => simp only [Option.map_some, Option.bind_eq_bind, Option.bind_some, h.coords]

theorem EcGroup.Via.keg (h : E.Via E' f) (X : Crypto) (md256 md512 : Bytes → Bytes) (ukm : Bytes) (nid : PkeyNid) (Q : G) (d : Nat) :
    gost_keg E' X md256 md512 ukm nid (f Q) d = gost_keg E X md256 md512 ukm nid Q d := by
  unfold gost_keg
  simp only [h.vko]

end

open Classical in
/-- The group of a curve with ideal multiplications. -/
noncomputable def curveGroup (e : EcParams) [Fact e.p.Prime] (gen : CurvePoint (e.a : ZMod e.p) (e.b : ZMod e.p)) :
    EcGroup (CurvePoint (e.a : ZMod e.p) (e.b : ZMod e.p)) where
  gen := gen
  order := e.q
  field := e.p
  cofactor := e.cofactor
  coords := ecOf
  mulTwo k P m := if P ≠ 0 ∧ k < 256 ^ BN_num_bytes e.p ∧ m < 256 ^ BN_num_bytes e.p then some (k • gen + m • P) else none
  mulG k := if k < 256 ^ BN_num_bytes e.p then some (k • gen) else none
  mulVar P k := if P ≠ 0 ∧ k < 256 ^ BN_num_bytes e.p then some ((e.cofactor * k) • P) else none

theorem cofactor_facts : ∀ e ∈ R3410_2001_paramset ++ R3410_2012_512_paramset, e.q ≤ 256 ^ (if e.p < 2 ^ 256 then 32 else 64) ∧
    (256 ^ (if e.p < 2 ^ 256 then 31 else 63) ≤ e.p ∧ e.p < 256 ^ (if e.p < 2 ^ 256 then 32 else 64)) ∧ 0 < e.cofactor ∧ e.cofactor < e.q ∧ 2 ^ 128 < e.q := by
  decide +kernel

theorem q_fits {nid : CurveNid} {e : EcParams} (h : gost_nid2params nid = some e) : e.q ≤ 256 ^ BN_num_bytes e.p := by
  obtain ⟨h1, ⟨h2, h3⟩, _⟩ := cofactor_facts e (selected_mem h)
  split at h1
  · rename_i hc
    simp only [if_pos hc] at h2 h3
    rw [numBytes_32 h2 h3]; exact h1
  · rename_i hc
    simp only [if_neg hc] at h2 h3
    rw [numBytes_64 h2 h3]; exact h1

theorem curveGroup_sound {nid : CurveNid} {e : EcParams} (h : gost_nid2params nid = some e) [Fact e.p.Prime]
    (gen : CurvePoint (e.a : ZMod e.p) (e.b : ZMod e.p)) (hg : ecOf gen = some (e.x, e.y)) : (curveGroup e gen).Sound where
  prime := (C46_selected_standard nid e h).prime_q
  gen_order := gen_order (C46_selected_standard nid e h) hg
  gen_ne := by
    intro hc
    have : gen = 0 := hc
    rw [this] at hg; cases hg
  fits := q_fits h
  coords_zero := rfl
  coords_some P hP := by
    cases P with
    | zero => exact absurd rfl hP
    | some x y hn => exact ⟨_, _, rfl, ZMod.val_lt x, ZMod.val_lt y⟩
  mulG n hn := if_pos hn
  mulTwo n Q m hn hm hQ _ := if_pos ⟨hQ, lt_of_lt_of_le hn (q_fits h), lt_of_lt_of_le hm (q_fits h)⟩
  mulVar Q m hm hQ := if_pos ⟨hQ, lt_of_lt_of_le hm (q_fits h)⟩
  cofactor := by
    intro hd
    obtain ⟨_, _, h1, h2, _⟩ := cofactor_facts e (selected_mem h)
    exact absurd (Nat.le_of_dvd h1 hd) (not_le_of_gt h2)

theorem setAffine_eq (e : EcParams) (nid : CurveNid) [Fact e.p.Prime] : (groupOf e nid).setAffine = onCurve (e.a : ZMod e.p) (e.b : ZMod e.p) := by
  funext x y
  unfold EcGroupRec.setAffine onCurve
  rw [Bool.eq_iff_iff]
  simp only [beq_iff_eq, decide_eq_true_eq]
  change y ^ 2 % e.p = (x ^ 3 + e.a * x + e.b) % e.p ↔ _
  rw [← ZMod.natCast_eq_natCast_iff']
  push_cast
  rfl

theorem engine_via (ws : WordSize) (ossl : EcpFile) {nid : CurveNid} {e : EcParams} (h : gost_nid2params nid = some e)
    (hn : nid ≠ .tc26_512_paramSetTest) [Fact e.p.Prime] (gen : CurvePoint (e.a : ZMod e.p) (e.b : ZMod e.p))
    (hg : ecOf gen = some (e.x, e.y)) : (curveGroup e gen).Via (engineGroup ws ossl (groupOf e nid)) ecOf := by
  have hc := C45_every_curve ws ossl nid e h hn gen hg
  refine ⟨rfl, rfl, rfl, fun P => rfl, fun n => ?_, fun Q m => ?_, fun n Q m hQ => ?_⟩
  · have := hc.mulG n
    rw [← setAffine_eq e nid] at this
    refine this.trans ?_
    simp only [curveGroup]
    split <;> rfl
  · have := hc.mul Q m
    rw [← setAffine_eq e nid] at this
    refine this.trans ?_
    simp only [curveGroup]
    split <;> rfl
  · have := hc.mulTwo Q n m hQ
    rw [← setAffine_eq e nid] at this
    refine this.trans ?_
    simp only [curveGroup]
    split <;> rfl

/-- The base point of a curve of the tables. -/
theorem base_exists {nid : CurveNid} {e : EcParams} (h : gost_nid2params nid = some e) [Fact e.p.Prime] :
    ∃ gen : CurvePoint (e.a : ZMod e.p) (e.b : ZMod e.p), ecOf gen = some (e.x, e.y) := by
  have hc := C46_selected_standard nid e h
  obtain ⟨hn, _⟩ := hc.point inferInstance
  refine ⟨.some _ _ hn, ?_⟩
  simp only [ecOf, ZMod.val_natCast]
  rw [Nat.mod_eq_of_lt hc.reduced.2.2.1, Nat.mod_eq_of_lt hc.reduced.2.2.2]

theorem filled {history : List (Option CurveNid)} {nid : CurveNid} {g : EcGroupRec} (h : (fill_GOST_EC_params (cacheAfter history) nid).2 = some g) :
    ∃ e, gost_nid2params nid = some e ∧ g = groupOf e nid := by
  rw [C46_fill_any_history, ← C46_nid_selects] at h
  cases he : gost_nid2params nid with
  | none => rw [he] at h; cases h
  | some e => rw [he] at h; exact ⟨e, rfl, (Option.some.inj h).symm⟩

/-- **C45**: on every curve with a file, with either word size, after any history of requests for curves: a signature made with a
private key is accepted with its public key. -/
theorem C45_engine_accepts_signed (ws : WordSize) (ossl : EcpFile) (history : List (Option CurveNid)) (nid : CurveNid)
    (hn : nid ≠ .tc26_512_paramSetTest) (g : EcGroupRec) (hfill : (fill_GOST_EC_params (cacheAfter history) nid).2 = some g)
    (d : Nat) (hd : ¬ g.q ∣ d) (hd2 : d < 256 ^ BN_num_bytes g.p) (dgst : Bytes) (draws : List Nat) (hk : ∀ k ∈ draws, k < g.q)
    (r s : Nat) (Q : EcPoint) (hQ : gost_ec_compute_public (engineGroup ws ossl g) d = some Q)
    (hs : gost_ec_sign (engineGroup ws ossl g) dgst d draws = some (r, s)) :
    gost_ec_verify (engineGroup ws ossl g) dgst r s Q = 1 := by
  obtain ⟨e, he, rfl⟩ := filled hfill
  have hp : Fact e.p.Prime := ⟨(C46_selected_standard nid e he).prime_p⟩
  obtain ⟨gen, hg⟩ := base_exists he
  have hv := engine_via ws ossl he hn gen hg
  have hE := curveGroup_sound he gen hg
  rw [hv.public] at hQ
  rw [hv.sign] at hs
  obtain ⟨P, hP, rfl⟩ := Option.map_eq_some_iff.1 hQ
  have hPq : (curveGroup e gen).order • P = 0 := by
    simp only [gost_ec_compute_public, gost_ec_point_mul, hE.mulG d hd2, Option.some.injEq] at hP
    rw [← hP, nsmul_left_comm, hE.gen_order, nsmul_zero]
  rw [hv.verify dgst r s P hPq]
  exact C38_verify_accepts_signed (curveGroup e gen) hE d hd hd2 dgst draws hk r s P hP hs

/-- **C45**: on every curve with a file, with either word size, verification is that of the standard in the group of the curve, for
every public key in the group of order `q`. -/
theorem C45_engine_verifies_standard (ws : WordSize) (ossl : EcpFile) (nid : CurveNid) (hn : nid ≠ .tc26_512_paramSetTest) (e : EcParams)
    (he : gost_nid2params nid = some e) [Fact e.p.Prime] (gen Q : CurvePoint (e.a : ZMod e.p) (e.b : ZMod e.p))
    (hg : ecOf gen = some (e.x, e.y)) (hQ : Q ≠ 0) (hQq : e.q • Q = 0) (dgst : Bytes) (hl : dgst.length = 32 ∨ dgst.length = 64) (r s : Int) :
    gost_ec_verify (engineGroup ws ossl (groupOf e nid)) dgst r s (ecOf Q) = 1 ↔
      Spec.Verifies gen e.q (fun P => (ecOf P).map (·.1)) Q (Spec.digestNumber e.q dgst) r s := by
  rw [(engine_via ws ossl he hn gen hg).verify dgst r s Q hQq]
  exact C38_verify_is_standard (curveGroup e gen) (curveGroup_sound he gen hg) dgst hl r s Q hQ hQq

/-- **C45**: the public key computed for a private key is that multiple of the base point. -/
theorem C45_engine_public (ws : WordSize) (ossl : EcpFile) (nid : CurveNid) (hn : nid ≠ .tc26_512_paramSetTest) (e : EcParams)
    (he : gost_nid2params nid = some e) [Fact e.p.Prime] (gen : CurvePoint (e.a : ZMod e.p) (e.b : ZMod e.p))
    (hg : ecOf gen = some (e.x, e.y)) (d : Nat) (hd : d < 256 ^ BN_num_bytes e.p) :
    gost_ec_compute_public (engineGroup ws ossl (groupOf e nid)) d = some (ecOf (d • gen)) := by
  rw [(engine_via ws ossl he hn gen hg).public]
  simp only [gost_ec_compute_public, gost_ec_point_mul, (curveGroup_sound he gen hg).mulG d hd]
  rfl

/-- **C45**: key generation makes pairs of a number in `1..q-1` and that multiple of the base point. -/
theorem C45_engine_keygen (ws : WordSize) (ossl : EcpFile) (nid : CurveNid) (hn : nid ≠ .tc26_512_paramSetTest) (e : EcParams)
    (he : gost_nid2params nid = some e) [Fact e.p.Prime] (gen : CurvePoint (e.a : ZMod e.p) (e.b : ZMod e.p))
    (hg : ecOf gen = some (e.x, e.y)) (draws : List Nat) (hk : ∀ k ∈ draws, k < e.q) (d : Nat) (Q : EcPoint)
    (h : gost_ec_keygen (engineGroup ws ossl (groupOf e nid)) draws = some (d, Q)) : 0 < d ∧ d < e.q ∧ Q = ecOf (d • gen) := by
  rw [(engine_via ws ossl he hn gen hg).keygen] at h
  obtain ⟨⟨d', P⟩, h1, h2⟩ := Option.map_eq_some_iff.1 h
  obtain ⟨rfl, rfl⟩ := Prod.mk.inj h2
  obtain ⟨k1, k2, k3, _⟩ := C38_keygen (curveGroup e gen) (curveGroup_sound he gen hg) draws hk d' P h1
  exact ⟨k1, k2, by rw [k3]; rfl⟩

/-- **C45**: both sides of a key agreement get the same key, on every curve with a file, with possibly different word sizes. -/
theorem C45_engine_vko_symmetric (wsA wsB : WordSize) (ossl : EcpFile) (historyA historyB : List (Option CurveNid)) (nid : CurveNid)
    (hn : nid ≠ .tc26_512_paramSetTest) (gA gB : EcGroupRec) (hfA : (fill_GOST_EC_params (cacheAfter historyA) nid).2 = some gA)
    (hfB : (fill_GOST_EC_params (cacheAfter historyB) nid).2 = some gB) (md : Bytes → Bytes) (dA dB : Nat) (QA QB : EcPoint)
    (hA : gost_ec_compute_public (engineGroup wsA ossl gA) dA = some QA) (hB : gost_ec_compute_public (engineGroup wsB ossl gB) dB = some QB)
    (hA1 : dA < 256 ^ BN_num_bytes gA.p) (hB1 : dB < 256 ^ BN_num_bytes gA.p) (hA0 : ¬ gA.q ∣ dA) (hB0 : ¬ gA.q ∣ dB) (ukm : Bytes) :
    VKO_compute_key (engineGroup wsA ossl gA) md QB dA ukm = VKO_compute_key (engineGroup wsB ossl gB) md QA dB ukm := by
  obtain ⟨e, he, rfl⟩ := filled hfA
  obtain ⟨e', he', rfl⟩ := filled hfB
  obtain rfl : e = e' := Option.some.inj (he.symm.trans he')
  have hp : Fact e.p.Prime := ⟨(C46_selected_standard nid e he).prime_p⟩
  obtain ⟨gen, hg⟩ := base_exists he
  have hvA := engine_via wsA ossl he hn gen hg
  have hvB := engine_via wsB ossl he hn gen hg
  have hE := curveGroup_sound he gen hg
  rw [hvA.public] at hA
  rw [hvB.public] at hB
  obtain ⟨PA, hPA, rfl⟩ := Option.map_eq_some_iff.1 hA
  obtain ⟨PB, hPB, rfl⟩ := Option.map_eq_some_iff.1 hB
  rw [hvA.vko, hvB.vko]
  exact C40_vko_symmetric (curveGroup e gen) hE md dA dB PA PB hPA hPB hA1 hB1 hA0 hB0 ukm

/-- **C45**: key agreement is VKO of the standard on every curve with a file. -/
theorem C45_engine_vko_standard (ws : WordSize) (ossl : EcpFile) (nid : CurveNid) (hn : nid ≠ .tc26_512_paramSetTest) (e : EcParams)
    (he : gost_nid2params nid = some e) [Fact e.p.Prime] (Q : CurvePoint (e.a : ZMod e.p) (e.b : ZMod e.p)) (hQ : Q ≠ 0) (hQq : e.q • Q = 0)
    (md : Bytes → Bytes) (d : Nat) (ukm : Bytes) :
    VKO_compute_key (engineGroup ws ossl (groupOf e nid)) md (ecOf Q) d ukm =
      (ecOf (Spec.vkoPoint e.cofactor (leNat ukm) d Q)).map fun xy =>
        md (leBytes (BN_num_bytes e.p) xy.1 ++ leBytes (BN_num_bytes e.p) xy.2) := by
  obtain ⟨gen, hg⟩ := base_exists he
  rw [(engine_via ws ossl he hn gen hg).vko]
  rw [C40_vko_is_standard (curveGroup e gen) (curveGroup_sound he gen hg) md Q hQ hQq]
  unfold sharedBytes
  rw [Option.map_map]
  rfl

/-- **C45**: the derived key of the TLS key exchange agrees on both sides, on every curve with a file. -/
theorem C45_engine_keg_agreement (wsA wsB : WordSize) (ossl : EcpFile) (nid : CurveNid) (hn : nid ≠ .tc26_512_paramSetTest) (e : EcParams)
    (he : gost_nid2params nid = some e) [Fact e.p.Prime] (X : Crypto) (md256 md512 : Bytes → Bytes) (ukm : Bytes) (hl : 16 ≤ ukm.length)
    (kn : PkeyNid) (hkn : kn = .gost2012_256 ∨ kn = .gost2012_512) (dA dB : Nat) (QA QB : EcPoint)
    (hA : gost_ec_compute_public (engineGroup wsA ossl (groupOf e nid)) dA = some QA)
    (hB : gost_ec_compute_public (engineGroup wsB ossl (groupOf e nid)) dB = some QB)
    (hA1 : dA < 256 ^ BN_num_bytes e.p) (hB1 : dB < 256 ^ BN_num_bytes e.p) (hA0 : ¬ e.q ∣ dA) (hB0 : ¬ e.q ∣ dB) :
    ∃ key, gost_keg (engineGroup wsA ossl (groupOf e nid)) X md256 md512 ukm kn QB dA = some key ∧
      gost_keg (engineGroup wsB ossl (groupOf e nid)) X md256 md512 ukm kn QA dB = some key := by
  obtain ⟨gen, hg⟩ := base_exists he
  have hvA := engine_via wsA ossl he hn gen hg
  have hvB := engine_via wsB ossl he hn gen hg
  rw [hvA.public] at hA
  rw [hvB.public] at hB
  obtain ⟨PA, hPA, rfl⟩ := Option.map_eq_some_iff.1 hA
  obtain ⟨PB, hPB, rfl⟩ := Option.map_eq_some_iff.1 hB
  rw [hvA.keg, hvB.keg]
  obtain ⟨k1, k2⟩ := C41_keg_agreement (curveGroup e gen) (curveGroup_sound he gen hg) (cofactor_facts e (selected_mem he)).2.2.2.2 X md256 md512 ukm hl kn hkn
    dA dB PA PB hPA hPB hA1 hB1 hA0 hB0
  obtain ⟨key, hkey⟩ := Option.ne_none_iff_exists'.1 k2
  exact ⟨key, hkey, k1 ▸ hkey⟩

-- the hypotheses are met: a group, a base point, a signature
example : (fill_GOST_EC_params (cacheAfter [some .tc26_256_paramSetA, none, some .CryptoPro_XchA]) .tc26_256_paramSetB).2 =
    some (groupOf ec_CryptoPro_A .tc26_256_paramSetB) := C46_fill_any_history _ _

example (ws : WordSize) (ossl : EcpFile) :
    gost_ec_sign (engineGroup ws ossl (groupOf ec_CryptoPro_A .tc26_256_paramSetB)) (zeros 32) 1 [1] = some (1, 2) := by
  have hp : Fact ec_CryptoPro_A.p.Prime := ⟨prime_p_CryptoPro_A⟩
  have he : gost_nid2params .tc26_256_paramSetB = some ec_CryptoPro_A := rfl
  obtain ⟨gen, hg⟩ := base_exists he
  rw [(engine_via ws ossl he (by decide) gen hg).sign]
  unfold gost_ec_sign
  rw [if_pos (by decide)]
  have hE := curveGroup_sound he gen hg
  rw [signLoop_cons _ hE _ _ _ hE.prime.one_lt, one_nsmul]
  have : (curveGroup ec_CryptoPro_A gen).coords (curveGroup ec_CryptoPro_A gen).gen = some (ec_CryptoPro_A.x, ec_CryptoPro_A.y) := hg
  rw [this]
  change (if ec_CryptoPro_A.x % ec_CryptoPro_A.q = 0 then _ else if (1 * (ec_CryptoPro_A.x % ec_CryptoPro_A.q) % ec_CryptoPro_A.q +
    1 * digestNum ec_CryptoPro_A.q (zeros 32) % ec_CryptoPro_A.q) % ec_CryptoPro_A.q = 0 then _ else _) = _
  rw [if_neg (by decide +kernel), if_neg (by decide +kernel)]
  exact congrArg some (show ((ec_CryptoPro_A.x % ec_CryptoPro_A.q, (1 * (ec_CryptoPro_A.x % ec_CryptoPro_A.q) % ec_CryptoPro_A.q +
    1 * digestNum ec_CryptoPro_A.q (zeros 32) % ec_CryptoPro_A.q) % ec_CryptoPro_A.q) : Nat × Nat) = (1, 2) by decide +kernel)

end Gost
