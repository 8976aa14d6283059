import Verif.Lemmas.EcCurves256
import Verif.Lemmas.EcCurves512
import Verif.Lemmas.EcCurves512c
import Verif.Model.EcParams

/-!
# C46: the built-in curves

Every entry of the two tables satisfies the conditions of GOST R 34.10-2012, section 5.2 (`Spec.GostCurve`: both moduli prime,
the number of points is exactly `cofactor * q`, the base point has order `q`, ...); a NID selects the curve it names; the
cache of groups has no effect on what a key gets.
-/

namespace Gost

open WeierstrassCurve
open Spec (GostCurve)

/-- **C46**: every curve in the tables is one the standard allows. -/
theorem C46_all_curves_standard : ∀ e ∈ R3410_2001_paramset ++ R3410_2012_512_paramset,
    GostCurve e.p e.a e.b e.q e.x e.y e.cofactor := by
  simp only [R3410_2001_paramset, R3410_2012_512_paramset, List.cons_append, List.nil_append, List.mem_cons,
    List.not_mem_nil, or_false, forall_eq_or_imp, forall_eq]
  exact ⟨gostCurve_Test, gostCurve_CryptoPro_A, gostCurve_CryptoPro_B, gostCurve_CryptoPro_C, gostCurve_CryptoPro_A,
    gostCurve_CryptoPro_C, gostCurve_tc26_256_paramSetA, gostCurve_tc26_512_paramSetTest, gostCurve_tc26_512_paramSetA,
    gostCurve_tc26_512_paramSetB, gostCurve_tc26_512_paramSetC⟩

/-- Which table entry a NID stands for (RFC 4357 section 11.4, RFC 7836 section 5 and appendix A.1, RFC 9215). -/
def curveOfNid : CurveNid → Option EcParams
  | .Test => some ec_Test
  | .CryptoPro_A => some ec_CryptoPro_A
  | .CryptoPro_B => some ec_CryptoPro_B
  | .CryptoPro_C => some ec_CryptoPro_C
  | .CryptoPro_XchA => some ec_CryptoPro_XchA
  | .CryptoPro_XchB => some ec_CryptoPro_XchB
  | .tc26_256_paramSetA => some ec_tc26_256_paramSetA
  | .tc26_256_paramSetB => some ec_CryptoPro_A
  | .tc26_256_paramSetC => some ec_CryptoPro_B
  | .tc26_256_paramSetD => some ec_CryptoPro_C
  | .tc26_512_paramSetTest => some ec_tc26_512_paramSetTest
  | .tc26_512_paramSetA => some ec_tc26_512_paramSetA
  | .tc26_512_paramSetB => some ec_tc26_512_paramSetB
  | .tc26_512_paramSetC => some ec_tc26_512_paramSetC
  | .other _ => none

/-- **C46**: a NID selects the entry it stands for, every other number none. -/
theorem C46_nid_selects (nid : CurveNid) : gost_nid2params nid = curveOfNid nid := by
  cases nid <;> rfl

/-- **C46**: the names that stand for one curve (CryptoPro-A, XchA, tc26-256-B; B, tc26-256-C; C, XchB, tc26-256-D) select the
same numbers. -/
theorem C46_aliases :
    ({ ec_CryptoPro_XchA with nid := .CryptoPro_A } = ec_CryptoPro_A) ∧
    ({ ec_CryptoPro_XchB with nid := .CryptoPro_C } = ec_CryptoPro_C) ∧
    gost_nid2params .tc26_256_paramSetB = gost_nid2params .CryptoPro_A ∧
    gost_nid2params .tc26_256_paramSetC = gost_nid2params .CryptoPro_B ∧
    gost_nid2params .tc26_256_paramSetD = gost_nid2params .CryptoPro_C := ⟨rfl, rfl, rfl, rfl, rfl⟩

/-- **C46**: whatever NID is given, the curve a key gets is one the standard allows. -/
theorem C46_selected_standard (nid : CurveNid) (e : EcParams) (h : gost_nid2params nid = some e) :
    GostCurve e.p e.a e.b e.q e.x e.y e.cofactor := by
  apply C46_all_curves_standard
  unfold gost_nid2params at h
  simp only at h
  split at h
  · rename_i e' he
    rw [Option.some.injEq] at h
    subst h
    exact List.mem_append_right _ (List.mem_of_find?_eq_some he)
  · exact List.mem_append_left _ (List.mem_of_find?_eq_some h)

/-- The group of an entry under a name. -/
def groupOf (e : EcParams) (nid : CurveNid) : EcGroupRec :=
  { p := e.p, a := e.a, b := e.b, x := e.x, y := e.y, q := e.q, cofactor := e.cofactor, name := nid }

/-- A cache that holds nothing but groups of its entries (under some name). -/
def CacheOk (c : GroupCache) : Prop := ∀ e ∈ R3410_2001_paramset ++ R3410_2012_512_paramset, ∀ g, c e.nid = some g → ∃ n, g = groupOf e n

theorem cacheOk_free : CacheOk free_cached_groups := by
  intro e _ g h
  exact absurd h (by simp [free_cached_groups])

/-- OpenSSL accepts every entry. -/
theorem accepts_all : ∀ e ∈ R3410_2001_paramset ++ R3410_2012_512_paramset, opensslAccepts e = true := by decide +kernel

/-- Entries with the same NID are the same. -/
theorem nid_inj : ∀ e ∈ R3410_2001_paramset ++ R3410_2012_512_paramset, ∀ e' ∈ R3410_2001_paramset ++ R3410_2012_512_paramset,
    e.nid = e'.nid → e = e' := by decide +kernel

theorem selected_mem {nid : CurveNid} {e : EcParams} (h : gost_nid2params nid = some e) :
    e ∈ R3410_2001_paramset ++ R3410_2012_512_paramset := by
  unfold gost_nid2params at h
  simp only at h
  split at h
  · rename_i e' he
    rw [Option.some.injEq] at h
    subst h
    exact List.mem_append_right _ (List.mem_of_find?_eq_some he)
  · exact List.mem_append_left _ (List.mem_of_find?_eq_some h)

theorem fill_step (c : GroupCache) (hc : CacheOk c) (nid : CurveNid) :
    CacheOk (fill_GOST_EC_params c nid).1 ∧
    (fill_GOST_EC_params c nid).2 = (curveOfNid nid).map (groupOf · nid) := by
  unfold fill_GOST_EC_params
  rw [← C46_nid_selects]
  cases hs : gost_nid2params nid with
  | none => exact ⟨hc, rfl⟩
  | some e =>
    have hm := selected_mem hs
    have put : ∀ n, CacheOk (fun m => if m = e.nid then some (groupOf e n) else c m) := by
      intro n e' he' g hg
      simp only at hg
      split at hg
      · rename_i heq
        have := nid_inj e' he' e hm heq
        subst this
        exact ⟨n, (Option.some.inj hg).symm⟩
      · exact hc e' he' g hg
    simp only [Option.map_some]
    cases hg : c e.nid with
    | some g =>
      obtain ⟨n, rfl⟩ := hc e hm g hg
      exact ⟨put nid, rfl⟩
    | none =>
      simp only
      rw [if_pos (accepts_all e hm)]
      exact ⟨put nid, rfl⟩

/-- The state of the cache after a history of requests (`none`: `free_cached_groups`). -/
def cacheAfter : List (Option CurveNid) → GroupCache
  | [] => free_cached_groups
  | none :: _ => free_cached_groups
  | some n :: h => (fill_GOST_EC_params (cacheAfter h) n).1

/-- **C46**: after any history of requests a key gets exactly the curve its NID names, under that name; only unknown NIDs are
refused. -/
theorem C46_fill_any_history (history : List (Option CurveNid)) (nid : CurveNid) :
    (fill_GOST_EC_params (cacheAfter history) nid).2 = (curveOfNid nid).map (groupOf · nid) := by
  have : CacheOk (cacheAfter history) := by
    induction history with
    | nil => exact cacheOk_free
    | cons x h ih =>
      cases x with
      | none => exact cacheOk_free
      | some n => exact (fill_step _ ih n).1
  exact (fill_step _ this nid).2

/-- **C46**: on a curve with cofactor 1 every point lies in the group of prime order that the base point generates; in general a
multiple by the cofactor does. -/
theorem C46_cofactor_clears (nid : CurveNid) (e : EcParams) (h : gost_nid2params nid = some e) [Fact e.p.Prime]
    (Q : CurvePoint (e.a : ZMod e.p) (e.b : ZMod e.p)) : e.q • (e.cofactor • Q) = 0 := by
  have hc := (C46_selected_standard nid e h).points inferInstance
  have : Finite (CurvePoint (e.a : ZMod e.p) (e.b : ZMod e.p)) := (card_le _ _).1
  rw [← mul_nsmul, ← hc]
  exact card_nsmul_eq_zero'

/-- **C46**: the number of points satisfies Hasse's bound (as it must). -/
theorem C46_hasse (nid : CurveNid) (e : EcParams) (h : gost_nid2params nid = some e) :
    ((e.cofactor * e.q : Int) - (e.p + 1)) ^ 2 ≤ 4 * e.p := by
  have key : ∀ e ∈ R3410_2001_paramset ++ R3410_2012_512_paramset,
      ((e.cofactor * e.q : Int) - (e.p + 1)) ^ 2 ≤ 4 * e.p := by decide +kernel
  exact key e (selected_mem h)

-- the theorems are not about an empty table
example : (R3410_2001_paramset ++ R3410_2012_512_paramset).length = 11 := rfl
example : gost_nid2params .tc26_256_paramSetA = some ec_tc26_256_paramSetA ∧ ec_tc26_256_paramSetA.cofactor = 4 := ⟨rfl, rfl⟩
example : (fill_GOST_EC_params (cacheAfter [some .tc26_256_paramSetB, some .CryptoPro_A]) .CryptoPro_A).2.map (·.name) =
  some .CryptoPro_A := by decide +kernel

end Gost
