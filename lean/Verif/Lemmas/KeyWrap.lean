import Verif.Model.KeyWrap
import Verif.Spec.KeyWrap
import Verif.Lemmas.Imit
import Verif.Lemmas.StreebogCore
import Mathlib.Data.Nat.Bitwise

/-! # CryptoPro key wrap -/

namespace Gost
open Spec

theorem bytesOf_nat (w : W32) : [byteOf w 0, byteOf w 1, byteOf w 2, byteOf w 3] = leBytes 4 w.toNat := by
  have h : ∀ i, byteOf w i = BitVec.ofNat 8 (w.toNat / 256 ^ i) := by
    intro i
    apply BitVec.eq_of_toNat_eq
    rw [byteOf, BitVec.toNat_setWidth, BitVec.toNat_ushiftRight, BitVec.toNat_ofNat, Nat.shiftRight_eq_div_pow,
      show (256 : Nat) ^ i = 2 ^ (8 * i) from (Nat.pow_mul 2 8 i).symm]
  rw [h, h, h, h]
  simp [leBytes, Nat.div_div_eq_div_mul]

theorem le32_nat (a b c d : Byte) : (le32 a b c d).toNat = leNat [a, b, c, d] := by
  obtain ⟨h0, h1, h2, h3⟩ := byteOf_le32 a b c d
  have h := bytesOf_nat (le32 a b c d)
  rw [h0, h1, h2, h3] at h
  rw [h, leNat_leBytes, Nat.mod_eq_of_lt (by have := (le32 a b c d).isLt; omega)]

theorem take4 (k : Bytes) (j : Nat) (h : j + 4 ≤ k.length) :
    (k.drop j).take 4 = [at_ k j, at_ k (j + 1), at_ k (j + 2), at_ k (j + 3)] := by
  apply List.ext_getElem
  · simp; omega
  · intro i h1 h2
    simp only [List.length_cons, List.length_nil] at h2
    simp only [at_]
    rw [getD_lt _ _ _ (by omega), getD_lt _ _ _ (by omega), getD_lt _ _ _ (by omega), getD_lt _ _ _ (by omega)]
    simp only [List.getElem_take, List.getElem_drop]
    have : i < 4 := by omega
    interval_cases i <;> rfl

theorem keyWord_nat (k : Bytes) (j : Nat) (h : 4 * j + 4 ≤ k.length) : (keyWord k j).toNat = KeyWrap.word k j := by
  rw [keyWord, le32_nat, KeyWrap.word, take4 _ _ h]

theorem bit_iff (u : Byte) (j : Nat) : (1 <<< j) &&& u.toNat ≠ 0 ↔ u.getLsbD j = true := by
  rw [Nat.shiftLeft_eq, Nat.one_mul, Nat.two_pow_and, BitVec.getLsbD]
  cases u.toNat.testBit j <;> simp

theorem divSums_fold (k : Bytes) (u : Byte) (hk : k.length = 32) (js : List Nat) (hj : ∀ j ∈ js, j < 8) (s : W32 × W32) :
    let r := js.foldl (fun (s : W32 × W32) j =>
      if (1 <<< j) &&& u.toNat ≠ 0 then (s.1 + keyWord k j, s.2) else (s.1, s.2 + keyWord k j)) s
    r.1.toNat = (s.1.toNat + ((js.filter fun j => u.getLsbD j).map (KeyWrap.word k)).sum) % 2 ^ 32 ∧
    r.2.toNat = (s.2.toNat + ((js.filter fun j => !u.getLsbD j).map (KeyWrap.word k)).sum) % 2 ^ 32 := by
  induction js generalizing s with
  | nil =>
    have h1 := s.1.isLt
    have h2 := s.2.isLt
    simp only [List.foldl_nil, List.filter_nil, List.map_nil, List.sum_nil, Nat.add_zero]
    exact ⟨(Nat.mod_eq_of_lt h1).symm, (Nat.mod_eq_of_lt h2).symm⟩
  | cons j js ih =>
    have hw := keyWord_nat k j (by have := hj j List.mem_cons_self; omega)
    intro r
    have hr : r = js.foldl (fun (s : W32 × W32) j =>
        if (1 <<< j) &&& u.toNat ≠ 0 then (s.1 + keyWord k j, s.2) else (s.1, s.2 + keyWord k j))
        (if (1 <<< j) &&& u.toNat ≠ 0 then (s.1 + keyWord k j, s.2) else (s.1, s.2 + keyWord k j)) := List.foldl_cons ..
    have ih' := ih (fun x hx => hj x (List.mem_cons_of_mem _ hx))
      (if (1 <<< j) &&& u.toNat ≠ 0 then (s.1 + keyWord k j, s.2) else (s.1, s.2 + keyWord k j))
    simp only at ih'
    rw [← hr] at ih'
    rw [ih'.1, ih'.2]
    by_cases hb : u.getLsbD j = true
    · have f1 : (j :: js).filter (fun j => u.getLsbD j) = j :: js.filter (fun j => u.getLsbD j) := List.filter_cons_of_pos hb
      have f2 : (j :: js).filter (fun j => !u.getLsbD j) = js.filter (fun j => !u.getLsbD j) := List.filter_cons_of_neg (by simp [hb])
      rw [if_pos ((bit_iff u j).mpr hb), f1, f2, List.map_cons, List.sum_cons]
      simp only
      rw [BitVec.toNat_add, hw]
      exact ⟨by omega, trivial⟩
    · have f1 : (j :: js).filter (fun j => u.getLsbD j) = js.filter (fun j => u.getLsbD j) := List.filter_cons_of_neg hb
      have f2 : (j :: js).filter (fun j => !u.getLsbD j) = j :: js.filter (fun j => !u.getLsbD j) :=
        List.filter_cons_of_pos (by simpa using hb)
      rw [if_neg (fun h => hb ((bit_iff u j).mp h)), f1, f2, List.map_cons, List.sum_cons]
      simp only
      rw [BitVec.toNat_add, hw]
      exact ⟨trivial, by omega⟩

theorem divS_eq (k : Bytes) (u : Byte) (hk : k.length = 32) :
    [byteOf (divSums k u).1 0, byteOf (divSums k u).1 1, byteOf (divSums k u).1 2, byteOf (divSums k u).1 3,
     byteOf (divSums k u).2 0, byteOf (divSums k u).2 1, byteOf (divSums k u).2 2, byteOf (divSums k u).2 3] = KeyWrap.S k u := by
  have h := divSums_fold k u hk (List.range 8) (fun j hj => List.mem_range.mp hj) (0, 0)
  simp only at h
  have h1 : (divSums k u).1.toNat = _ := h.1
  have h2 : (divSums k u).2.toNat = _ := h.2
  have e1 := bytesOf_nat (divSums k u).1
  have e2 := bytesOf_nat (divSums k u).2
  rw [h1, show (0 : W32).toNat = 0 from rfl, Nat.zero_add, show 2 ^ 32 = 256 ^ 4 from rfl, leBytes_mod] at e1
  rw [h2, show (0 : W32).toNat = 0 from rfl, Nat.zero_add, show 2 ^ 32 = 256 ^ 4 from rfl, leBytes_mod] at e2
  rw [KeyWrap.S, ← e1, ← e2]
  rfl

theorem blocks8_succ (n : Nat) (b : Bytes) (h : b.length = 8 * (n + 1)) : blocks 8 b = b.take 8 :: blocks 8 (b.drop 8) := by
  conv => lhs; rw [blocks]
  rw [dif_pos ⟨by omega, by intro hb; rw [hb] at h; simp at h⟩]

theorem enc_cfb_eq (c : Ctx) (n : Nat) : ∀ (iv b : Bytes), b.length = 8 * n →
    gost_enc_cfb c iv b n = (cfbPlainEnc (E89 c.box (gost_get_key c)) iv (blocks 8 b)).flatten := by
  induction n with
  | zero =>
    intro iv b h
    have : b = [] := List.length_eq_zero_iff.mp (by omega)
    subst this
    rw [blocks, dif_neg (by simp)]; rfl
  | succ n ih =>
    intro iv b h
    rw [blocks8_succ n b h, gost_enc_cfb, cfbPlainEnc]
    simp only [List.flatten_cons]
    rw [ih _ _ (by simp; omega), gostcrypt_eq]
    rfl

theorem gost_enc_cfb_length (c : Ctx) (n : Nat) : ∀ (iv b : Bytes), b.length = 8 * n → (gost_enc_cfb c iv b n).length = 8 * n := by
  induction n with
  | zero => intros; rfl
  | succ n ih =>
    intro iv b h
    rw [gost_enc_cfb]
    simp only [List.length_append]
    rw [ih _ _ (by simp; omega), gostcrypt_eq]
    simp; omega

theorem divStep_eq (s : Ctx × Bytes) (u : Byte) (h : s.2.length = 32) :
    (divStep s u).2 = KeyWrap.step (E89 s.1.box) s.2 u ∧ (divStep s u).1.box = s.1.box ∧ (divStep s u).2.length = 32 := by
  refine ⟨?_, rfl, ?_⟩
  · simp only [divStep]
    rw [divS_eq _ _ h, enc_cfb_eq _ 4 _ _ (by omega), gost_get_key_set _ _ h]
    rfl
  · simp only [divStep]
    exact gost_enc_cfb_length _ 4 _ _ (by omega)

theorem div_fold (us : Bytes) : ∀ s : Ctx × Bytes, s.2.length = 32 →
    (us.foldl divStep s).2 = us.foldl (KeyWrap.step (E89 s.1.box)) s.2 ∧ (us.foldl divStep s).1.box = s.1.box ∧
    (us.foldl divStep s).2.length = 32 := by
  induction us with
  | nil => intro s h; exact ⟨rfl, rfl, h⟩
  | cons u us ih =>
    intro s h
    obtain ⟨h1, h2, h3⟩ := divStep_eq s u h
    obtain ⟨i1, i2, i3⟩ := ih (divStep s u) h3
    rw [List.foldl_cons, List.foldl_cons]
    rw [h2, h1] at i1
    exact ⟨i1, i2.trans h2, i3⟩

theorem map_at8 (u : Bytes) (h : 8 ≤ u.length) : (List.range 8).map (at_ u) = u.take 8 := by
  apply List.ext_getElem
  · simp; omega
  · intro i h1 h2
    simp only [List.length_map, List.length_range] at h1
    simp only [List.getElem_map, List.getElem_range, List.getElem_take, at_]
    rw [getD_lt _ _ _ (by omega)]

theorem diversify_eq (c : Ctx) (kek u : Bytes) (hk : kek.length = 32) (hu : 8 ≤ u.length) :
    (keyDiversifyCryptoPro c kek u).2 = KeyWrap.diversify (E89 c.box) kek (u.take 8) ∧
    (keyDiversifyCryptoPro c kek u).1.box = c.box ∧ (keyDiversifyCryptoPro c kek u).2.length = 32 := by
  have ht : kek.take 32 = kek := List.take_of_length_le (by omega)
  have h := div_fold (u.take 8) (c, kek) hk
  rw [keyDiversifyCryptoPro, map_at8 u hu, ht]
  exact h

theorem gost_enc_eq (c : Ctx) (n : Nat) : ∀ b : Bytes, b.length = 8 * n →
    gost_enc c b n = ecb 8 (E89 c.box (gost_get_key c)) b := by
  induction n with
  | zero =>
    intro b h
    have : b = [] := List.length_eq_zero_iff.mp (by omega)
    subst this
    rw [ecb, blocks, dif_neg (by simp)]; rfl
  | succ n ih =>
    intro b h
    rw [ecb, blocks8_succ n b h, gost_enc, ih _ (by simp; omega), gostcrypt_eq, ecb]
    rfl

theorem gost_enc_take (c : Ctx) (n : Nat) : ∀ b : Bytes, gost_enc c b n = gost_enc c (b.take (8 * n)) n := by
  induction n with
  | zero => intro b; rfl
  | succ n ih =>
    intro b
    rw [gost_enc, gost_enc, List.take_take, show min 8 (8 * (n + 1)) = 8 by omega, List.drop_take, ih (b.drop 8),
      show 8 * (n + 1) - 8 = 8 * n by omega]

theorem gost_dec_take (c : Ctx) (n : Nat) : ∀ b : Bytes, gost_dec c b n = gost_dec c (b.take (8 * n)) n := by
  induction n with
  | zero => intro b; rfl
  | succ n ih =>
    intro b
    rw [gost_dec, gost_dec, List.take_take, show min 8 (8 * (n + 1)) = 8 by omega, List.drop_take, ih (b.drop 8),
      show 8 * (n + 1) - 8 = 8 * n by omega]

theorem gost_dec_eq (c : Ctx) (n : Nat) : ∀ b : Bytes, b.length = 8 * n →
    gost_dec c b n = ecb 8 (D89 c.box (gost_get_key c)) b := by
  induction n with
  | zero =>
    intro b h
    have : b = [] := List.length_eq_zero_iff.mp (by omega)
    subst this
    rw [ecb, blocks, dif_neg (by simp)]; rfl
  | succ n ih =>
    intro b h
    rw [ecb, blocks8_succ n b h, gost_dec, ih _ (by simp; omega), gostdecrypt_eq, ecb]
    rfl

theorem mac_iv_eq (c : Ctx) (iv b : Bytes) (hb : b.length = 32) :
    gost_mac_iv c 32 iv b = (macFold (M89 c.box (gost_get_key c)) (iv.take 8) (blocks 8 b)).take 4 := by
  have hall := blocks_all_length 8 (by decide) b (by rw [hb]; decide)
  have h := gostMacLoop_eq c (iv.take 8) (blocks 8 b) [] hall (by decide)
  rw [List.append_nil, blocks_flatten 8 (by decide)] at h
  unfold gost_mac_iv
  rw [h]
  simp only [List.length_nil, Nat.sub_zero, hb, Nat.lt_irrefl, if_false]
  rw [if_neg (by decide), get_mac]
  simp

theorem E89_D89 (box : KBox) (k b : Bytes) (h : b.length = 8) : E89 box k (D89 box k b) = b := by
  unfold D89 E89; exact gost_enc_dec _ _ h

theorem flatten_const (n : Nat) (l : List Bytes) (h : ∀ x ∈ l, x.length = n) : l.flatten.length = n * l.length := by
  induction l with
  | nil => rfl
  | cons a l ih =>
    rw [List.flatten_cons, List.length_append, h a List.mem_cons_self, ih (fun x hx => h x (List.mem_cons_of_mem _ hx)),
      List.length_cons, Nat.mul_succ, Nat.add_comm]

theorem ecb_len8 (E : Bytes → Bytes) (hE : ∀ b, (E b).length = 8) (b : Bytes) (h : 8 ∣ b.length) : (ecb 8 E b).length = b.length := by
  have h1 := flatten_const 8 _ (blocks_all_length 8 (by decide) b h)
  have h2 := flatten_const 8 ((blocks 8 b).map E) (by intro x hx; obtain ⟨y, -, rfl⟩ := List.mem_map.mp hx; exact hE y)
  rw [blocks_flatten 8 (by decide)] at h1
  rw [List.length_map] at h2
  rw [ecb, h2, h1]

theorem M89_length (box : KBox) (k s b : Bytes) : (M89 box k s b).length = 8 := by
  unfold M89
  simp only [mac_block]
  rfl

theorem macFold_length (M : Bytes → Bytes → Bytes) (hM : ∀ s b, (M s b).length = 8) (bs : List Bytes) :
    ∀ s : Bytes, s.length = 8 → (macFold M s bs).length = 8 := by
  induction bs with
  | nil => exact fun s h => h
  | cons b bs ih => exact fun s _ => ih _ (hM s b)

theorem wrap_mac_len (box : KBox) (kek ukm cek : Bytes) (hu : ukm.length = 8) :
    (KeyWrap.mac (E89 box) (M89 box) kek ukm cek).length = 4 := by
  rw [KeyWrap.mac, List.length_take, macFold_length _ (fun s b => M89_length _ _ s b) _ _ hu]; rfl

end Gost
