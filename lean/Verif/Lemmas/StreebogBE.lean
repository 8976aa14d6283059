import Verif.Model.StreebogBE
import Verif.Lemmas.StreebogCore

/-! # The big-endian core of Streebog computes the standard's functions -/

namespace Gost
open Spec

theorem ldBE64_eq (b : Bytes) : ldBE64 b = BSWAP64 (ldLE64 b) := by
  have h : ldLE64 b = ldLE64 [at_ b 0, at_ b 1, at_ b 2, at_ b 3, at_ b 4, at_ b 5, at_ b 6, at_ b 7] := rfl
  rw [h, BSWAP64_ld]
  simp only [ldBE64, ldLE64, at_, List.getD_cons_zero, List.getD_cons_succ]
  apply BitVec.eq_of_getLsbD_eq
  intro i _
  simp only [BitVec.getLsbD_or]
  ac_rfl

theorem stBE64_eq (w : W64) : stBE64 w = stLE64 (BSWAP64 w) := by
  simp only [stBE64, stLE64, show List.range 8 = [0,1,2,3,4,5,6,7] from rfl, List.map_cons, List.map_nil, List.cons.injEq, and_true]
  refine ⟨?_, ?_, ?_, ?_, ?_, ?_, ?_, ?_⟩ <;>
  · apply BitVec.eq_of_getLsbD_eq
    intro i hi
    interval_cases i <;> simp [BSWAP64, BitVec.getLsbD_of_ge]

theorem stBE64_length (w : W64) : (stBE64 w).length = 8 := by simp [stBE64]

theorem BSWAP64_xor (x y : W64) : BSWAP64 (x ^^^ y) = BSWAP64 x ^^^ BSWAP64 y := by
  apply BitVec.eq_of_getLsbD_eq
  intro i hi
  interval_cases i <;> simp [BSWAP64]

theorem bswap_bswap (x : W64) : BSWAP64 (BSWAP64 x) = x := by
  apply BitVec.eq_of_getLsbD_eq
  intro i hi
  interval_cases i <;> simp [BSWAP64]

theorem qwordBE_eq (u : Bytes) (i : Nat) : qwordBE u i = BSWAP64 (qword u i) := ldBE64_eq _

theorem ofQwordsBE_eq (q : List W64) : ofQwordsBE q = ofQwords (q.map BSWAP64) := by
  simp only [ofQwordsBE, ofQwords, List.flatMap_map]
  congr 1
  funext w
  exact stBE64_eq w

theorem AxBE_check : ((List.range 8).all fun j => (List.range 256).all fun x =>
    AxBE j (BitVec.ofNat 8 x) == BSWAP64 (Ax j (BitVec.ofNat 8 x))) = true := by
  decide +kernel

theorem AxBE_eq (j : Nat) (hj : j < 8) (x : Byte) : AxBE j x = BSWAP64 (Ax j x) := by
  have h := AxBE_check
  rw [List.all_eq_true] at h
  have h1 := h j (List.mem_range.mpr hj)
  rw [List.all_eq_true] at h1
  have h2 := h1 x.toNat (List.mem_range.mpr x.isLt)
  rw [BitVec.ofNat_toNat, BitVec.setWidth_eq] at h2
  simpa using h2

theorem CBE_check : (List.range 12).map streebogConstBE = (List.range 12).map streebogConst := by decide +kernel

theorem buffer512BE_eq : buffer512BE = buffer512 := by decide +kernel

theorem buffer0BE_eq : buffer0BE = buffer0 := by decide +kernel

theorem streebogConstBE_eq (i : Nat) (hi : i < 12) : streebogConstBE i = streebogConst i := by
  have := congrArg (fun l : List Bytes => l[i]?) CBE_check
  simpa [hi] using this

theorem X512BE_eq (x y : Bytes) : X512BE x y = X512 x y := by
  rw [X512BE, ofQwordsBE_eq, X512, List.map_map]
  congr 1
  apply List.map_congr_left
  intro i _
  simp only [Function.comp, qwordBE_eq, BSWAP64_xor, bswap_bswap]

theorem bswap_byte (w : W64) (i : Nat) (hi : i < 8) :
    (BSWAP64 w >>> (8 * i)).setWidth 8 = (w >>> (8 * (7 - i))).setWidth 8 := by
  apply BitVec.eq_of_getLsbD_eq
  intro k hk
  interval_cases i <;> interval_cases k <;> simp [BSWAP64, BitVec.getLsbD_of_ge]

theorem xlpsRowBE_eq (r : List W64) (hr : r.length = 8) (i : Nat) (hi : i < 8) :
    xlpsRowBE ((r.map BSWAP64).map fun (w : W64) => w >>> (8 * i)) =
      BSWAP64 (xlpsRow (r.map fun (w : W64) => w >>> (8 * (7 - i)))) := by
  obtain ⟨r0, r1, r2, r3, r4, r5, r6, r7, rfl⟩ : ∃ a b c d e f g h : W64, r = [a, b, c, d, e, f, g, h] := by
    match r, hr with
    | [a, b, c, d, e, f, g, h], _ => exact ⟨a, b, c, d, e, f, g, h, rfl⟩
  simp only [xlpsRow, xlpsRowBE, show List.range 8 = [0,1,2,3,4,5,6,7] from rfl, List.map_cons, List.map_nil, List.foldl_cons,
    List.foldl_nil, List.getD_cons_zero, List.getD_cons_succ, and_ff, bswap_byte _ i hi, BSWAP64_xor]
  rw [AxBE_eq 0 (by omega), AxBE_eq 1 (by omega), AxBE_eq 2 (by omega), AxBE_eq 3 (by omega), AxBE_eq 4 (by omega),
    AxBE_eq 5 (by omega), AxBE_eq 6 (by omega), AxBE_eq 7 (by omega)]
  rfl

theorem XLPSBE_eq (x y : Bytes) : XLPSBE x y = XLPS x y := by
  rw [XLPSBE, XLPS, ofQwordsBE_eq, xlpsLoop_eq]
  congr 1
  have hr : (List.range 8).map (fun i => qwordBE x i ^^^ qwordBE y i) =
      ((List.range 8).map fun i => qword x i ^^^ qword y i).map BSWAP64 := by
    rw [List.map_map]
    apply List.map_congr_left
    intro i _
    simp only [Function.comp, qwordBE_eq, BSWAP64_xor]
  rw [hr]
  generalize hq : (List.range 8).map (fun i => qword x i ^^^ qword y i) = r
  have hl : r.length = 8 := by rw [← hq]; simp
  have hs : ∀ k : Nat, ((fun l : List W64 => l.map fun (w : W64) => w >>> (8 : Nat))
      ((r.map BSWAP64).map fun (w : W64) => w >>> (8 * k))) = (r.map BSWAP64).map fun (w : W64) => w >>> (8 * (k + 1)) := by
    intro k
    simp only [List.map_map, Function.comp_def, ← BitVec.shiftRight_add]
    rfl
  have h0 : r.map BSWAP64 = (r.map BSWAP64).map fun (w : W64) => w >>> (8 * 0) := by simp
  conv_lhs => rw [h0]
  simp only [show List.range 8 = [0,1,2,3,4,5,6,7] from rfl, List.foldl_cons, List.foldl_nil, xlpsIterBE, hs,
    show List.replicate 8 (0 : W64) = [0,0,0,0,0,0,0,0] from rfl]
  rw [xlpsRowBE_eq r hl 0 (by omega), xlpsRowBE_eq r hl 1 (by omega), xlpsRowBE_eq r hl 2 (by omega),
    xlpsRowBE_eq r hl 3 (by omega), xlpsRowBE_eq r hl 4 (by omega), xlpsRowBE_eq r hl 5 (by omega),
    xlpsRowBE_eq r hl 6 (by omega), xlpsRowBE_eq r hl 7 (by omega)]
  simp [bswap_bswap]

theorem gRefBE_eq (h N m : Bytes) : gRefBE h N m = gRef h N m := by
  have hr : ∀ s, (List.range 11).foldl streebogRoundBE s = (List.range 11).foldl streebogRound s := by
    intro s
    simp only [show List.range 11 = [0,1,2,3,4,5,6,7,8,9,10] from rfl, List.foldl_cons, List.foldl_nil, streebogRoundBE,
      streebogRound, XLPSBE_eq]
    simp only [streebogConstBE_eq 0 (by omega), streebogConstBE_eq 1 (by omega), streebogConstBE_eq 2 (by omega),
      streebogConstBE_eq 3 (by omega), streebogConstBE_eq 4 (by omega), streebogConstBE_eq 5 (by omega),
      streebogConstBE_eq 6 (by omega), streebogConstBE_eq 7 (by omega), streebogConstBE_eq 8 (by omega),
      streebogConstBE_eq 9 (by omega), streebogConstBE_eq 10 (by omega)]
  simp only [gRefBE, gRef, XLPSBE_eq, X512BE_eq, hr, streebogConstBE_eq 11 (by omega)]

/-! ## The 32-bit SSE2 core -/

theorem mmExtract32_eq (row : Nat) (x : Xmm4) : mmExtract32 row x = mmExtract row x := rfl

theorem xlps128_32_eq (x y : Xmm4) : xlps128_32 x y = xlps128 x y := rfl

theorem gSse2_32_eq (h N m : Bytes) : gSse2_32 h N m = gSse2 h N m := by
  have hr : round128_32 = round128 := by
    funext s i
    simp only [round128_32, round128, xlps128_32_eq]
  simp only [gSse2_32, gSse2, hr, xlps128_32_eq]

end Gost
