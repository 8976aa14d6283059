import Verif.Model.OmacAcpkm
import Verif.Spec.Omac
import Verif.Lemmas.KuzStream
import Mathlib.Data.Nat.Bitwise

/-! # OMAC-ACPKM: proofs -/

namespace Gost
open Spec

/-! ## `make_kn` is doubling in GF(2^128) -/

/-- Shift a byte string left by one bit. -/
def shl1 : Bytes → Bytes
  | [] => []
  | [b] => [b <<< 1]
  | b :: c :: bs => ((b <<< 1) ||| (if c &&& 0x80 ≠ 0 then 1 else 0)) :: shl1 (c :: bs)

theorem shl1_length (l : Bytes) : (shl1 l).length = l.length := by
  match l with
  | [] => rfl
  | [_] => rfl
  | _ :: c :: bs => simp only [shl1, List.length_cons]; rw [shl1_length (c :: bs)]; simp

theorem msb_cases : ∀ b : Byte, (b &&& 0x80 ≠ 0 ↔ 128 ≤ b.toNat) ∧
    (b <<< 1).toNat = 2 * b.toNat - (if 128 ≤ b.toNat then 256 else 0) ∧
    ((b <<< 1) ||| 1).toNat = (b <<< 1).toNat + 1 := by
  decide +kernel

theorem beNat_cons (b : Byte) (l : Bytes) : beNat (b :: l) = b.toNat * 256 ^ l.length + beNat l := by
  have := beNat_append [b] l
  simpa using this

theorem beNat_shl1 (b : Byte) (l : Bytes) :
    beNat (shl1 (b :: l)) + (if 128 ≤ b.toNat then 256 ^ (l.length + 1) else 0) = 2 * beNat (b :: l) := by
  induction l generalizing b with
  | nil =>
    obtain ⟨_, h2, _⟩ := msb_cases b
    have hb := b.isLt
    simp only [shl1, beNat_singleton, h2]
    split <;> simp <;> omega
  | cons c l ih =>
    obtain ⟨_, h2, h3⟩ := msb_cases b
    obtain ⟨c1, _, _⟩ := msb_cases c
    have hb := b.isLt
    have hi := ih c
    rw [shl1, beNat_cons, shl1_length, beNat_cons b]
    have hv : ((b <<< 1) ||| (if c &&& 0x80 ≠ 0 then 1 else 0)).toNat = 2 * b.toNat - (if 128 ≤ b.toNat then 256 else 0) + (if 128 ≤ c.toNat then 1 else 0) := by
      by_cases hc : c &&& 0x80 ≠ 0
      · rw [if_pos hc, h3, h2, if_pos (c1.mp hc)]
      · rw [if_neg hc, if_neg (fun h => hc (c1.mpr h))]
        rw [show (b <<< 1 ||| (0 : Byte)) = b <<< 1 from BitVec.or_zero, h2, Nat.add_zero]
    rw [hv]
    simp only [List.length_cons]
    generalize beNat (shl1 (c :: l)) = X at *
    generalize beNat (c :: l) = Y at *
    have hp : 256 ^ (l.length + 1 + 1) = 256 * 256 ^ (l.length + 1) := by rw [Nat.pow_succ, Nat.mul_comm]
    rw [hp]
    generalize 256 ^ (l.length + 1) = Z at *
    by_cases hb8 : 128 ≤ b.toNat
    · obtain ⟨t, ht⟩ : ∃ t, b.toNat = 128 + t := ⟨b.toNat - 128, by omega⟩
      simp only [hb8, if_true]
      rw [ht]
      have e : 2 * (128 + t) - 256 = 2 * t := by omega
      rw [e]
      by_cases hc8 : 128 ≤ c.toNat
      · simp only [hc8, if_true] at *
        rw [Nat.add_mul, Nat.add_mul, Nat.one_mul, Nat.mul_assoc]; omega
      · simp only [hc8, if_false, Nat.add_zero] at *
        rw [Nat.add_mul, Nat.mul_assoc]; omega
    · simp only [hb8, if_false, Nat.sub_zero, Nat.add_zero] at *
      by_cases hc8 : 128 ≤ c.toNat
      · simp only [hc8, if_true] at *
        rw [Nat.add_mul, Nat.one_mul, Nat.mul_assoc]; omega
      · simp only [hc8, if_false, Nat.add_zero] at *
        rw [Nat.mul_assoc]; omega

theorem xor_low (a x c : Nat) (hx : x < 256) (hc : c < 256) : Nat.xor (256 * a + x) c = 256 * a + Nat.xor x c := by
  have hxc : Nat.xor x c < 2 ^ 8 := Nat.xor_lt_two_pow (n := 8) hx hc
  apply Nat.eq_of_testBit_eq
  intro i
  have e : ∀ y, 256 * a + y = 2 ^ 8 * a + y := fun y => rfl
  show ((256 * a + x) ^^^ c).testBit i = _
  rw [Nat.testBit_xor, e, e, Nat.testBit_two_pow_mul_add _ hx, Nat.testBit_two_pow_mul_add _ hxc]
  split
  · exact (Nat.testBit_xor x c i).symm
  · have : c.testBit i = false := Nat.testBit_lt_two_pow (Nat.lt_of_lt_of_le hc (Nat.pow_le_pow_right (n := 2) (by decide) (show 8 ≤ i by omega)))
    rw [this, Bool.xor_false]

theorem make_kn_shl1 (l : Bytes) (h : l.length = 16) :
    make_kn l 16 = if at_ l 0 &&& 0x80 ≠ 0 then (shl1 l).set 15 (at_ (shl1 l) 15 ^^^ 0x87) else shl1 l := by
  obtain ⟨a0, a1, a2, a3, a4, a5, a6, a7, a8, a9, a10, a11, a12, a13, a14, a15, rfl⟩ := list16 h
  have hl : ((List.range 16).map fun i =>
    let b := at_ [a0, a1, a2, a3, a4, a5, a6, a7, a8, a9, a10, a11, a12, a13, a14, a15] i <<< 1
    if i < 16 - 1 ∧ at_ [a0, a1, a2, a3, a4, a5, a6, a7, a8, a9, a10, a11, a12, a13, a14, a15] (i + 1) &&& 0x80 ≠ 0 then b ||| 1 else b) =
    shl1 [a0, a1, a2, a3, a4, a5, a6, a7, a8, a9, a10, a11, a12, a13, a14, a15] := by
    have hif : ∀ (b : Byte) (p : Prop) [Decidable p], (b ||| (if p then 1 else 0)) = if p then b ||| 1 else b := by
      intro b p _; split <;> simp
    simp only [shl1, hif]
    simp [List.range_succ, at_]
  unfold make_kn
  rw [hl]
  rfl

theorem make_kn_dbl (l : Bytes) (h : l.length = 16) : make_kn l 16 = dbl128 l := by
  rw [make_kn_shl1 l h]
  have hlen := shl1_length l
  rw [h] at hlen
  obtain ⟨b, t, rfl⟩ : ∃ b t, l = b :: t := by
    cases l with
    | nil => simp at h
    | cons b t => exact ⟨b, t, rfl⟩
  have ht : t.length = 15 := by simpa using h
  have hs := beNat_shl1 b t
  have hlt := beNat_lt (shl1 (b :: t))
  rw [ht] at hs
  rw [hlen] at hlt
  obtain ⟨m1, _, _⟩ := msb_cases b
  have hat : at_ (b :: t) 0 = b := rfl
  rw [hat]
  unfold dbl128
  have hpow : (256 : Nat) ^ 16 = 2 ^ 128 := by decide
  rw [show 15 + 1 = 16 from rfl, hpow] at hs
  rw [hpow] at hlt
  simp only
  by_cases hb : 128 ≤ b.toNat
  · rw [if_pos (m1.mpr hb), if_neg (by rw [if_pos hb] at hs; omega)]
    rw [if_pos hb] at hs
    have hv : 2 * beNat (b :: t) - 2 ^ 128 = beNat (shl1 (b :: t)) := by omega
    rw [hv]
    generalize shl1 (b :: t) = s at *
    obtain ⟨i, x, rfl⟩ : ∃ i x, s = i ++ [x] := by
      have hne : s ≠ [] := by rintro rfl; simp at hlen
      exact ⟨s.dropLast, s.getLast hne, (List.dropLast_concat_getLast hne).symm⟩
    have hi : i.length = 15 := by simpa using hlen
    have hg : at_ (i ++ [x]) 15 = x := by
      unfold at_
      simp [← hi]
    have hset : (i ++ [x]).set 15 (x ^^^ 0x87) = i ++ [x ^^^ 0x87] := by
      rw [← hi]; simp
    rw [hg, hset, beNat_concat, xor_low _ _ _ x.isLt (by decide)]
    have hx : Nat.xor x.toNat 135 = (x ^^^ 0x87).toNat := by
      rw [BitVec.toNat_xor]; rfl
    rw [hx, ← beNat_concat, beBytes_beNat _ _ (by simp [hi])]
  · rw [if_neg (fun h => hb (m1.mp h)), if_pos (by rw [if_neg hb] at hs; omega)]
    rw [if_neg hb, Nat.add_zero] at hs
    rw [← hs, beBytes_beNat _ _ hlen]

/-! ## The ACPKM-Master key material -/

/-- The ACPKM-Master context after `i` requests of 48 bytes. -/
def mst (a : KCtx) (i : Nat) : KCtx := iter (fun a => (gost_grasshopper_cipher_do_ctracpkm a (zeros 48)).1) i a

/-- Request number `i` (from 0). -/
def mout (a : KCtx) (i : Nat) : Bytes := (gost_grasshopper_cipher_do_ctracpkm (mst a i) (zeros 48)).2

theorem feed_concat {S : Type} (upd : S → Bytes → S × Bytes) (s : S) (cs : List Bytes) (x : Bytes) :
    feed upd s (cs ++ [x]) = ((upd (feed upd s cs).1 x).1, (feed upd s cs).2 ++ (upd (feed upd s cs).1 x).2) := by
  induction cs generalizing s with
  | nil => simp [feed]
  | cons c cs ih => simp only [List.cons_append, feed, ih, List.append_assoc]

theorem feed_master (a : KCtx) (i : Nat) :
    (feed gost_grasshopper_cipher_do_ctracpkm a (List.replicate i (zeros 48))).1 = mst a i ∧
    (feed gost_grasshopper_cipher_do_ctracpkm a (List.replicate (i + 1) (zeros 48))).2 =
      (feed gost_grasshopper_cipher_do_ctracpkm a (List.replicate i (zeros 48))).2 ++ mout a i := by
  have h1 : ∀ i, (feed gost_grasshopper_cipher_do_ctracpkm a (List.replicate i (zeros 48))).1 = mst a i := by
    intro i
    induction i with
    | zero => rfl
    | succ i ih =>
      rw [List.replicate_succ', feed_concat, mst, iter_succ_out, ← mst, ih]
  refine ⟨h1 i, ?_⟩
  rw [List.replicate_succ', feed_concat, h1 i]
  rfl

theorem xorStream_length (bl : Nat) (g : Nat → Bytes) (d : Bytes) : (xorStream bl g d).length = d.length := by
  simp [xorStream]

theorem flatten_replicate_zeros (i n : Nat) : (List.replicate i (zeros n)).flatten = zeros (n * i) := by
  induction i with
  | zero => rfl
  | succ i ih =>
    rw [List.replicate_succ, List.flatten_cons, ih]
    simp only [zeros, List.replicate_append_replicate, Nat.mul_succ]
    congr 1; omega

theorem getD_app3 (a b c : Bytes) (ha : a.length = 16) (hb : b.length = 16) (p : Nat) (hp : p < 48) :
    (a ++ b ++ c).getD p 0 =
      if p < 16 then a.getD p 0 else if p < 32 then b.getD (p - 16) 0 else c.getD (p - 32) 0 := by
  simp only [List.getD_eq_getElem?_getD]
  by_cases h1 : p < 16
  · rw [if_pos h1, List.append_assoc, List.getElem?_append_left (by omega)]
  · by_cases h2 : p < 32
    · rw [if_neg h1, if_pos h2, List.getElem?_append_left (by simp; omega), List.getElem?_append_right (by omega), ha]
    · rw [if_neg h1, if_neg h2, List.getElem?_append_right (by simp; omega)]
      congr 2; simp; omega

/-- The 48 bytes at position `48 i` of a gamma stream. -/
theorem xorStream_slice (g : Nat → Bytes) (hg : ∀ j, (g j).length = 16) (i : Nat) :
    (xorStream 16 g (zeros (48 * (i + 1)))).drop (48 * i) = g (3 * i) ++ g (3 * i + 1) ++ g (3 * i + 2) := by
  apply List.ext_getElem
  · simp [xorStream, zeros, hg]; omega
  · intro p h1 h2
    have hp : p < 48 := by simp [xorStream, zeros] at h1; omega
    have e : (g (3 * i) ++ g (3 * i + 1) ++ g (3 * i + 2))[p] = (g (3 * i) ++ g (3 * i + 1) ++ g (3 * i + 2)).getD p 0 := by
      rw [List.getD_eq_getElem?_getD, List.getElem?_eq_getElem h2]; rfl
    rw [e, getD_app3 _ _ _ (hg _) (hg _) p hp]
    simp only [xorStream, List.getElem_drop, List.getElem_mapIdx, zeros, List.getElem_replicate]
    by_cases h1 : p < 16
    · rw [if_pos h1, show (48 * i + p) / 16 = 3 * i by omega, show (48 * i + p) % 16 = p by omega]; simp
    · by_cases h2 : p < 32
      · rw [if_neg h1, if_pos h2, show (48 * i + p) / 16 = 3 * i + 1 by omega, show (48 * i + p) % 16 = p - 16 by omega]; simp
      · rw [if_neg h1, if_neg h2, show (48 * i + p) / 16 = 3 * i + 2 by omega, show (48 * i + p) % 16 = p - 32 by omega]; simp

theorem mout_eq (T : Nat) (hT : T < 2^32 - 16) (h0 : 0 < T) (h16 : 16 ∣ T) (a : KCtx) (h : KactrInv T a) (hn : a.num = 0)
    (hiv : a.iv = List.replicate 8 0xff ++ List.replicate 8 0) (i : Nat) : mout a i = omacMaterial EKuz T a.key i := by
  have hl : a.iv.length = 16 := by rw [hiv]; rfl
  have hh := fun n => kactr_history T hT a h hn hl (List.replicate n (zeros 48))
  have hr : (T + 15) / 16 * 16 = T := by omega
  simp only [flatten_replicate_zeros, hr] at hh
  have h2 := (feed_master a i).2
  have e : mout a i = ((feed gost_grasshopper_cipher_do_ctracpkm a (List.replicate (i + 1) (zeros 48))).2).drop (48 * i) := by
    rw [h2, List.drop_append, List.drop_of_length_le (by rw [hh i, xorStream_length]; simp [zeros])]
    rw [hh i, xorStream_length]; simp [zeros]
  rw [e, hh (i + 1), xorStream_slice _ (by intro j; unfold ctrAcpkmGamma; exact EKuz_length _ _)]
  unfold omacMaterial ctrAcpkmGamma
  simp only [if_neg (show T ≠ 0 by omega), hiv, Nat.mul_comm _ 16]

/-- Within a section nothing depends on the section size. -/
theorem kAcpkmBody_section (c : KCtx) (T : Nat) (blk : Bytes) (h1 : c.num < c.section_size) (h2 : c.num < T) :
    kAcpkmBody { c with section_size := T } blk = ({ (kAcpkmBody c blk).1 with section_size := T }, (kAcpkmBody c blk).2) := by
  have e1 : apply_acpkm_grasshopper c = c := by unfold apply_acpkm_grasshopper; rw [if_pos (Or.inr h1)]
  have e2 : apply_acpkm_grasshopper { c with section_size := T } = { c with section_size := T } := by
    unfold apply_acpkm_grasshopper; rw [if_pos (Or.inr h2)]
  unfold kAcpkmBody kAcpkmGamma
  rw [e1, e2]

theorem kAcpkmBody_num (c : KCtx) (blk : Bytes) (h1 : c.num < c.section_size) :
    (kAcpkmBody c blk).1.num = (c.num + 16) % 2^32 ∧ (kAcpkmBody c blk).1.section_size = c.section_size := by
  have e1 : apply_acpkm_grasshopper c = c := by unfold apply_acpkm_grasshopper; rw [if_pos (Or.inr h1)]
  unfold kAcpkmBody kAcpkmGamma
  rw [e1]
  exact ⟨rfl, rfl⟩

theorem while3 {S : Type} (body tail : S → Bytes → S × Bytes) (s : S) :
    (let r := whileBlocks 16 body s (zeros 48)
     let t : S × Bytes := if 0 < r.2.2.length then tail r.1 r.2.2 else (r.1, [])
     (t.1, [] ++ r.2.1 ++ t.2)) =
      (let b := zeros 16
       let r1 := body s b
       let r2 := body r1.1 b
       let r3 := body r2.1 b
       (r3.1, r1.2 ++ (r2.2 ++ r3.2))) := by
  rw [whileBlocks_step 16 _ _ _ (by decide) (by decide), whileBlocks_step 16 _ _ _ (by decide) (by decide),
    whileBlocks_step 16 _ _ _ (by decide) (by decide), whileBlocks_small 16 _ _ _ (by decide)]
  have t1 : (zeros 48).take 16 = zeros 16 := rfl
  have t2 : ((zeros 48).drop 16).take 16 = zeros 16 := rfl
  have t3 : (((zeros 48).drop 16).drop 16).take 16 = zeros 16 := rfl
  have t4 : (((zeros 48).drop 16).drop 16).drop 16 = [] := rfl
  simp only [t1, t2, t3, t4, List.length_nil, Nat.lt_irrefl, if_false, List.nil_append, List.append_nil]

theorem while1 {S : Type} (body : S → Bytes → S × Bytes) (s : S) (b : Bytes) (hb : b.length = 16) :
    (let r := whileBlocks 16 body s b; (r.1, r.2.1)) = body s b := by
  rw [whileBlocks_step 16 _ _ _ (by decide) (by omega), whileBlocks_small 16 _ _ _ (by simp [hb])]
  rw [List.take_of_length_le (by omega)]
  simp only [List.append_nil]

theorem do_ctracpkm_3 (c : KCtx) (h0 : c.num = 0) :
    gost_grasshopper_cipher_do_ctracpkm c (zeros 48) =
      (let b := zeros 16
       let r1 := kAcpkmBody { c with num := 0 } b
       let r2 := kAcpkmBody r1.1 b
       let r3 := kAcpkmBody r2.1 b
       (r3.1, r1.2 ++ (r2.2 ++ r3.2))) := by
  have hp : kAcpkmPart c.partial_buffer c.num (zeros 48) = (0, [], zeros 48) := by
    rw [h0]
    show kAcpkmPart c.partial_buffer 0 (0 :: zeros 47) = _
    rw [kAcpkmPart, if_neg (by decide)]; rfl
  unfold gost_grasshopper_cipher_do_ctracpkm
  rw [hp]
  exact while3 kAcpkmBody (fun c rest =>
    let c := kAcpkmGamma c
    ({ c with num := (c.num + rest.length) % 2^32 }, xorB (c.partial_buffer.take rest.length) rest)) { c with num := 0 }

/-- Setting the section size of the ACPKM-Master stream after the first 48 bytes is as if it had been set before. -/
theorem mst_set_section (a : KCtx) (T : Nat) (h0 : a.num = 0) (h1 : 48 ≤ a.section_size) (h2 : 48 ≤ T) :
    gost_grasshopper_cipher_do_ctracpkm { a with section_size := T } (zeros 48) =
      ({ (gost_grasshopper_cipher_do_ctracpkm a (zeros 48)).1 with section_size := T },
        (gost_grasshopper_cipher_do_ctracpkm a (zeros 48)).2) := by
  rw [do_ctracpkm_3 a h0, do_ctracpkm_3 { a with section_size := T } h0]
  simp only
  have s1 := kAcpkmBody_section { a with num := 0 } T (zeros 16) (by simp only; omega) (by simp only; omega)
  have n1 := kAcpkmBody_num { a with num := 0 } (zeros 16) (by simp only; omega)
  rw [s1]
  generalize kAcpkmBody { a with num := 0 } (zeros 16) = r1 at *
  simp only at *
  have s2 := kAcpkmBody_section r1.1 T (zeros 16) (by omega) (by omega)
  have n2 := kAcpkmBody_num r1.1 (zeros 16) (by omega)
  rw [s2]
  generalize kAcpkmBody r1.1 (zeros 16) = r2 at *
  have s3 := kAcpkmBody_section r2.1 T (zeros 16) (by omega) (by omega)
  rw [s3]

/-! ## The CBC context -/

/-- The CBC context has key `k`, chaining value `s` and is encrypting. -/
def CbcAt (k s : Bytes) (c : KCtx) : Prop := KFacts c ∧ c.key = k ∧ c.iv = s ∧ c.encrypting = true ∧ c.oiv.length = 16

theorem cbcAt_init (c : KCtx) (km s : Bytes) (hs : s.length = 16) (h1 : c.iv.length = 16) (h2 : c.oiv.length = 16) :
    CbcAt (copyN 32 km) s (gost_grasshopper_cipher_init_cbc c (some km) (some s) true) := by
  have ho : memcpyTo c.oiv s 16 = s := by simp [memcpyTo, ← hs, List.drop_of_length_le, h2]
  have hi : memcpyTo c.iv (memcpyTo c.oiv s 16) 16 = s := by
    rw [ho]; simp [memcpyTo, ← hs, List.drop_of_length_le, h1]
  refine ⟨⟨rfl, rfl, copyN_length _ _, ?_⟩, rfl, hi, rfl, ?_⟩
  · exact (congrArg List.length hi).trans hs
  · exact (congrArg List.length ho).trans hs

theorem cbcAt_set (k s : Bytes) (c : KCtx) (h : CbcAt k s c) (G : Bytes) (hG : G.length = 16) (r : KCtx × Bytes)
    (hr : r = ({ c with iv := G }, G)) : CbcAt k G r.1 ∧ r.2 = G := by
  obtain ⟨hf, hk, _, he, ho⟩ := h
  subst hr
  exact ⟨⟨⟨hf.1, hf.2.1, hf.2.2.1, hG⟩, hk, rfl, he, ho⟩, rfl⟩

theorem kCbcBody_enc (c : KCtx) (b : Bytes) (he : c.encrypting = true) :
    kCbcBody c b = ({ c with iv := grasshopper_encrypt_block c.encrypt_round_keys (xorB c.iv b) },
      grasshopper_encrypt_block c.encrypt_round_keys (xorB c.iv b)) := by
  unfold kCbcBody
  rw [if_pos he]

theorem do_cbc_one (c : KCtx) (b : Bytes) (hb : b.length = 16) : gost_grasshopper_cipher_do_cbc c b = kCbcBody c b := by
  unfold gost_grasshopper_cipher_do_cbc
  exact while1 kCbcBody c b hb

theorem cbcAt_step (k s : Bytes) (c : KCtx) (h : CbcAt k s c) (b : Bytes) (hb : b.length = 16) :
    CbcAt k (EKuz k (xorB s b)) (gost_grasshopper_cipher_do_cbc c b).1 ∧
    (gost_grasshopper_cipher_do_cbc c b).2 = EKuz k (xorB s b) := by
  refine cbcAt_set k s c h _ (EKuz_length k (xorB s b)) _ ?_
  obtain ⟨hf, hk, hs, he, ho⟩ := h
  have hl : (xorB c.iv b).length = 16 := by simp [hf.2.2.2, hb]
  have hE := hf.ok.enc (xorB c.iv b) hl
  rw [do_cbc_one c b hb, kCbcBody_enc c b he, hE, hk, hs]

/-! ## Sections -/

/-- The context after `j` blocks: `a` is the fresh ACPKM-Master context, `s` the chaining value. -/
structure CmInv (a : KCtx) (N : Nat) (j : Nat) (s : Bytes) (c : CmacCtx) : Prop where
  sec : c.section_size = N
  num : c.num = if j = 0 then 0 else 16 * (j - 1) % N + 16
  actx : c.actx = mst a (16 * (j - 1) / N + 1)
  km : c.km = mout a (16 * (j - 1) / N)
  cbc : CbcAt (copyN 32 c.km) s c.cctx
  slen : s.length = 16

theorem mesh_step (a : KCtx) (N : Nat) (h0 : 0 < N) (h16 : 16 ∣ N) (j : Nat) (s : Bytes) (c : CmacCtx)
    (h : CmInv a N j s c) :
    (CMAC_ACPKM_Mesh c).section_size = N ∧ (CMAC_ACPKM_Mesh c).num = 16 * j % N ∧
    (CMAC_ACPKM_Mesh c).actx = mst a (16 * j / N + 1) ∧ (CMAC_ACPKM_Mesh c).km = mout a (16 * j / N) ∧
    CbcAt (copyN 32 (mout a (16 * j / N))) s (CMAC_ACPKM_Mesh c).cctx ∧
    (CMAC_ACPKM_Mesh c).last_block = c.last_block ∧ (CMAC_ACPKM_Mesh c).nlast_block = c.nlast_block := by
  obtain ⟨i1, i2, i3, i4, i5, i6⟩ := h
  obtain ⟨n, rfl⟩ := h16
  have hn : 0 < n := by omega
  have hq : ∀ x, 16 * x / (16 * n) = x / n := fun x => Nat.mul_div_mul_left x n (by decide)
  have hr : ∀ x, 16 * x % (16 * n) = 16 * (x % n) := fun x => Nat.mul_mod_mul_left 16 x n
  rw [hq, hr]
  rw [hr] at i2
  rw [hq] at i3 i4
  unfold CMAC_ACPKM_Mesh
  by_cases hj : j = 0
  · subst hj
    rw [if_pos (by rw [i1, i2, if_pos rfl]; omega)]
    simp only [Nat.zero_div, Nat.zero_mod, Nat.zero_sub, Nat.mul_zero] at *
    refine ⟨i1, by simpa using i2, i3, i4, ?_, trivial, trivial⟩
    rw [← i4]; exact i5
  · obtain ⟨i, rfl⟩ : ∃ i, j = i + 1 := ⟨j - 1, by omega⟩
    simp only [Nat.add_sub_cancel, show i + 1 ≠ 0 by omega, if_false] at *
    have hdm := Nat.div_add_mod i n
    have hlt := Nat.mod_lt i hn
    by_cases hc : c.num < c.section_size
    · rw [if_pos hc]
      have h1 : i % n + 1 < n := by rw [i1, i2] at hc; omega
      have h2 : (i + 1) / n = i / n ∧ (i + 1) % n = i % n + 1 := by
        have e : i + 1 = (i % n + 1) + n * (i / n) := by omega
        constructor
        · rw [e, Nat.add_mul_div_left _ _ hn, Nat.div_eq_of_lt h1]; omega
        · rw [e, Nat.add_mul_mod_self_left, Nat.mod_eq_of_lt h1]
      rw [h2.1, h2.2]
      refine ⟨i1, by rw [i2]; omega, i3, i4, ?_, rfl, rfl⟩
      rw [← i4]; exact i5
    · rw [if_neg hc]
      have h1 : i % n + 1 = n := by rw [i1, i2] at hc; omega
      have h2 : (i + 1) / n = i / n + 1 ∧ (i + 1) % n = 0 := by
        have e : i + 1 = n * (i / n + 1) := by rw [Nat.mul_add]; omega
        constructor
        · rw [e, Nat.mul_div_cancel_left _ hn]
        · rw [e, Nat.mul_mod_right]
      rw [h2.1, h2.2]
      have hm : gost_grasshopper_cipher_do_ctracpkm c.actx (zeros 48) = (mst a (i / n + 1 + 1), mout a (i / n + 1)) := by
        rw [i3]
        unfold mout
        rw [mst, mst, iter_succ_out _ (i / n + 1)]
      rw [hm]
      simp only
      refine ⟨i1, trivial, trivial, trivial, ?_, trivial, trivial⟩
      have hiv : c.cctx.iv = s := i5.2.2.1
      rw [hiv]
      exact cbcAt_init c.cctx _ s i6 (by rw [hiv]; exact i6) i5.2.2.2.2

theorem cmacBlock_step (a : KCtx) (N : Nat) (h0 : 0 < N) (hN : N ≤ 2^32 - 16) (h16 : 16 ∣ N) (j : Nat) (s : Bytes) (c : CmacCtx)
    (h : CmInv a N j s c) (b : Bytes) (hb : b.length = 16) :
    CmInv a N (j + 1) (EKuz (copyN 32 (mout a (16 * j / N))) (xorB s b)) (cmacBlock c b) ∧
    (cmacBlock c b).last_block = c.last_block := by
  obtain ⟨m1, m2, m3, m4, m5, m6, m7⟩ := mesh_step a N h0 h16 j s c h
  have hc := cbcAt_step _ _ _ m5 b hb
  unfold cmacBlock
  have hlt : 16 * j % N < N := Nat.mod_lt _ h0
  have hd : 16 * j % N + 16 < 2^32 := by
    obtain ⟨n, rfl⟩ := h16
    have hr : 16 * j % (16 * n) = 16 * (j % n) := Nat.mul_mod_mul_left 16 j n
    rw [hr] at hlt ⊢
    omega
  refine ⟨⟨m1, ?_, ?_, ?_, ?_, EKuz_length _ _⟩, m6⟩
  · simp only [Nat.add_sub_cancel, show j + 1 ≠ 0 by omega, if_false, m2]
    exact Nat.mod_eq_of_lt hd
  · simpa using m3
  · simpa using m4
  · show CbcAt (copyN 32 (CMAC_ACPKM_Mesh c).km) _ _
    rw [m4]; exact hc.1

theorem cmacLoop_eq (c : CmacCtx) (p : Bytes) (hp : p ≠ []) :
    ∃ (bs : List Bytes) (rest : Bytes), p = bs.flatten ++ rest ∧ (∀ b ∈ bs, b.length = 16) ∧ rest.length ≤ 16 ∧ rest ≠ [] ∧
      cmacLoop c p = (bs.foldl cmacBlock c, rest) := by
  generalize hn : p.length = n
  induction n using Nat.strongRecOn generalizing c p with
  | ind n ih =>
    subst hn
    by_cases h : 16 < p.length
    · obtain ⟨bs, rest, h1, h2, h3, h4, h5⟩ := ih (p.drop 16).length (by simp; omega) (cmacBlock c (p.take 16)) (p.drop 16)
        (by intro h'; have := congrArg List.length h'; simp at this; omega) rfl
      refine ⟨p.take 16 :: bs, rest, ?_, ?_, h3, h4, ?_⟩
      · simp only [List.flatten_cons, List.append_assoc]
        rw [← h1, List.take_append_drop]
      · intro b hb
        rcases List.mem_cons.mp hb with rfl | hb
        · simp; omega
        · exact h2 b hb
      · rw [cmacLoop, dif_pos h, h5]; rfl
    · refine ⟨[], p, by simp, by simp, by omega, hp, ?_⟩
      rw [cmacLoop, dif_neg h]; rfl

theorem omacFold_append (E : Bytes → Bytes → Bytes) (N : Nat) (km : Nat → Bytes) (j : Nat) (s : Bytes) (xs ys : List Bytes) :
    omacFold E N km j s (xs ++ ys) = omacFold E N km (j + xs.length) (omacFold E N km j s xs) ys := by
  induction xs generalizing j s with
  | nil => simp [omacFold]
  | cons x xs ih => simp only [List.cons_append, omacFold, ih, List.length_cons]; congr 1; omega

theorem copyN_take (n : Nat) (b : Bytes) (h : n ≤ b.length) : copyN n b = b.take n := by
  apply List.ext_getElem
  · simp; omega
  · intro i h1 h2
    simp [copyN, at_, List.getD_eq_getElem?_getD] at h1 ⊢
    rw [List.getElem?_eq_getElem (by omega)]; rfl

/-- What the context looks like after absorbing `m`. -/
def OmInv (a : KCtx) (N : Nat) (m : Bytes) (c : CmacCtx) : Prop :=
  ∃ (bs : List Bytes) (p : Bytes), m = bs.flatten ++ p ∧ (∀ b ∈ bs, b.length = 16) ∧ p.length ≤ 16 ∧ (m = [] ∨ p ≠ []) ∧
    c.nlast_block = some p.length ∧ c.last_block.length = 16 ∧ c.last_block.take p.length = p ∧
    CmInv a N bs.length (omacFold EKuz N (mout a) 0 (zeros 16) bs) c

theorem fold_cm (a : KCtx) (N : Nat) (h0 : 0 < N) (hN : N ≤ 2^32 - 16) (h16 : 16 ∣ N) (hm : ∀ i, (mout a i).length = 48)
    (bs : List Bytes) (hbs : ∀ b ∈ bs, b.length = 16) (j : Nat) (s : Bytes) (c : CmacCtx) (h : CmInv a N j s c) :
    CmInv a N (j + bs.length) (omacFold EKuz N (mout a) j s bs) (bs.foldl cmacBlock c) ∧
    (bs.foldl cmacBlock c).last_block = c.last_block := by
  induction bs generalizing j s c with
  | nil => exact ⟨h, rfl⟩
  | cons b bs ih =>
    obtain ⟨s1, s2⟩ := cmacBlock_step a N h0 hN h16 j s c h b (hbs b (by simp))
    rw [copyN_take 32 _ (by rw [hm]; decide)] at s1
    obtain ⟨i1, i2⟩ := ih (fun x hx => hbs x (by simp [hx])) (j + 1) _ _ s1
    rw [List.foldl_cons, omacFold]
    refine ⟨?_, i2.trans s2⟩
    have e : j + (b :: bs).length = j + 1 + bs.length := by simp; omega
    rw [e]
    exact i1

theorem cmacRest_inv (a : KCtx) (N : Nat) (h0 : 0 < N) (hN : N ≤ 2^32 - 16) (h16 : 16 ∣ N) (hm : ∀ i, (mout a i).length = 48)
    (bs : List Bytes) (hbs : ∀ b ∈ bs, b.length = 16) (c : CmacCtx) (hl : c.last_block.length = 16)
    (h : CmInv a N bs.length (omacFold EKuz N (mout a) 0 (zeros 16) bs) c) (data : Bytes) (hd : data ≠ []) :
    OmInv a N (bs.flatten ++ data) (cmacRest c data) := by
  obtain ⟨bs', rest, h1, h2, h3, h4, h5⟩ := cmacLoop_eq c data hd
  obtain ⟨f1, f2⟩ := fold_cm a N h0 hN h16 hm bs' h2 _ _ c h
  unfold cmacRest
  rw [h5]
  generalize bs'.foldl cmacBlock c = d at *
  refine ⟨bs ++ bs', rest, by rw [h1]; simp, ?_, h3, Or.inr h4, rfl, ?_, ?_, ?_⟩
  · intro b hb
    rcases List.mem_append.mp hb with hb | hb
    · exact hbs b hb
    · exact h2 b hb
  · simp [memcpyTo, f2, hl]; omega
  · simp [memcpyTo]
  · rw [List.length_append, omacFold_append, Nat.zero_add]
    exact ⟨f1.sec, f1.num, f1.actx, f1.km, f1.cbc, f1.slen⟩

theorem cmac_update_inv (a : KCtx) (N : Nat) (h0 : 0 < N) (hN : N ≤ 2^32 - 16) (h16 : 16 ∣ N) (hm : ∀ i, (mout a i).length = 48)
    (m : Bytes) (c : CmacCtx) (h : OmInv a N m c) (data : Bytes) :
    ∃ c', CMAC_ACPKM_Update c data = some c' ∧ OmInv a N (m ++ data) c' := by
  obtain ⟨bs, p, h1, h2, h3, h4, h5, h6, h7, h8⟩ := h
  unfold CMAC_ACPKM_Update
  rw [h5]
  simp only
  by_cases hd : data.length = 0
  · rw [if_pos hd]
    have : data = [] := List.length_eq_zero_iff.mp hd
    subst this
    exact ⟨c, rfl, bs, p, by simpa using h1, h2, h3, by simpa using h4, h5, h6, h7, h8⟩
  · have hdne : data ≠ [] := by rintro rfl; simp at hd
    rw [if_neg hd]
    by_cases hp : 0 < p.length
    · rw [if_pos hp, h7]
      by_cases hle : data.length ≤ 16 - p.length
      · have hnl : (if data.length < 16 - p.length then data.length else 16 - p.length) = data.length := by split <;> omega
        rw [hnl, List.take_length, List.drop_length]
        refine ⟨_, rfl, bs, p ++ data, by rw [h1]; simp, h2, by simp; omega, Or.inr (by simp [hdne]), by simp, ?_, ?_, ?_⟩
        · simp [h6]; omega
        · simp only [List.append_assoc]
          rw [← List.append_assoc, List.take_left]
        · exact ⟨h8.sec, h8.num, h8.actx, h8.km, h8.cbc, h8.slen⟩
      · have hnl : (if data.length < 16 - p.length then data.length else 16 - p.length) = 16 - p.length := by split <;> omega
        rw [hnl]
        have hdl : (data.drop (16 - p.length)).length ≠ 0 := by simp; omega
        have hdr : c.last_block.drop (p.length + (16 - p.length)) = [] := List.drop_eq_nil_of_le (by omega)
        rw [if_neg hdl, hdr, List.append_nil]
        refine ⟨_, rfl, ?_⟩
        have hlen : (p ++ data.take (16 - p.length)).length = 16 := by simp; omega
        generalize hb : p ++ data.take (16 - p.length) = b at *
        have h8' : CmInv a N bs.length (omacFold EKuz N (mout a) 0 (zeros 16) bs)
            { c with last_block := b, nlast_block := some (p.length + (16 - p.length)) } :=
          ⟨h8.sec, h8.num, h8.actx, h8.km, h8.cbc, h8.slen⟩
        obtain ⟨s1, s2⟩ := cmacBlock_step a N h0 hN h16 _ _ _ h8' b hlen
        rw [copyN_take 32 _ (by rw [hm]; decide)] at s1
        have e : m ++ data = (bs ++ [b]).flatten ++ data.drop (16 - p.length) := by
          rw [h1, ← hb]; simp
        rw [e]
        apply cmacRest_inv a N h0 hN h16 hm (bs ++ [b])
        · intro x hx
          rcases List.mem_append.mp hx with hx | hx
          · exact h2 x hx
          · rw [List.mem_singleton.mp hx]; exact hlen
        · rw [s2]; exact hlen
        · rw [List.length_append, omacFold_append, Nat.zero_add]
          exact s1
        · intro h; apply hdl; rw [h]; rfl
    · have hp0 : p = [] := List.length_eq_zero_iff.mp (by omega)
      subst hp0
      have hm0 : m = [] := by rcases h4 with h | h; exact h; exact absurd rfl h
      rw [if_neg hp]
      refine ⟨_, rfl, ?_⟩
      rw [h1, List.append_nil]
      exact cmacRest_inv a N h0 hN h16 hm bs h2 c h6 h8 data hdne

theorem flatten_len16 (bs : List Bytes) (h : ∀ b ∈ bs, b.length = 16) : bs.flatten.length = 16 * bs.length := by
  induction bs with
  | nil => rfl
  | cons b bs ih =>
    simp only [List.flatten_cons, List.length_append, List.length_cons]
    rw [ih (fun x hx => h x (by simp [hx])), h b (by simp)]; omega

theorem omacSplit_eq (m : Bytes) (bs : List Bytes) (p : Bytes) (h1 : m = bs.flatten ++ p) (h2 : ∀ b ∈ bs, b.length = 16)
    (h3 : p.length ≤ 16) (h4 : m = [] ∨ p ≠ []) : omacSplit m = (bs, p) := by
  have hl := flatten_len16 bs h2
  have hml : m.length = 16 * bs.length + p.length := by rw [h1, List.length_append, hl]
  have hf : (m.length - 1) / 16 = bs.length := by
    rcases h4 with h | h
    · rw [h] at hml ⊢; simp at hml ⊢; omega
    · have := List.length_pos_iff.mpr h; omega
  unfold omacSplit
  simp only [hf]
  rw [h1, ← hl, List.take_left, List.drop_left, blocks_of_flatten 16 (by decide) _ h2]

theorem cmac_final_eq (a : KCtx) (N : Nat) (h0 : 0 < N) (h16 : 16 ∣ N) (hm : ∀ i, (mout a i).length = 48)
    (m : Bytes) (c : CmacCtx) (h : OmInv a N m c) (key : Bytes) (T : Nat) (hmat : mout a = omacMaterial EKuz T key) :
    (CMAC_ACPKM_Final c).2 = some (omacAcpkm EKuz N T key m) := by
  obtain ⟨bs, p, h1, h2, h3, h4, h5, h6, h7, h8⟩ := h
  obtain ⟨m1, m2, m3, m4, m5, m6, m7⟩ := mesh_step a N h0 h16 _ _ c h8
  unfold CMAC_ACPKM_Final
  rw [h5]
  simp only
  rw [m4, m6]
  unfold omacAcpkm
  rw [omacSplit_eq m bs p h1 h2 h3 h4]
  simp only
  rw [← hmat]
  have hmi := hm (16 * bs.length / N)
  generalize mout a (16 * bs.length / N) = K at *
  rw [copyN_take 32 K (by omega)] at m5
  have hk1 : (K.drop 32).length = 16 := by simp [hmi]
  have hlast : ∀ x : Bytes, x.length = 16 →
      (gost_grasshopper_cipher_do_cbc (CMAC_ACPKM_Mesh c).cctx x).2 =
        EKuz (K.take 32) (Spec.xor (omacFold EKuz N (mout a) 0 (List.replicate 16 0) bs) x) :=
    fun x hx => (cbcAt_step _ _ _ m5 x hx).2
  by_cases hp : p.length = 16
  · have hlb : c.last_block = p := by rw [← h7, List.take_of_length_le (by omega)]
    rw [if_pos hp, if_pos hp, if_pos hp, hlb, hlast _ (by simp [hp, hk1])]
    rfl
  · rw [if_neg hp, if_neg hp, if_neg hp, h7, make_kn_dbl _ hk1]
    have hz : (if 16 - p.length > 1 then zeros (16 - p.length - 1) else []) = List.replicate (15 - p.length) 0 := by
      split
      · unfold zeros; congr 1; omega
      · have : 15 - p.length = 0 := by omega
        rw [this]; rfl
    have hd : (dbl128 (K.drop 32)).length = 16 := by unfold dbl128; simp
    rw [hz, hlast _ (by simp [hd]; omega)]
    rfl

end Gost
