import Verif.Model.Basic

/-!
# DER: tag, length, value

A small encoder and decoder of definite-length DER (values of less than 64 KiB), used to show that the assumptions made about OpenSSL's
DER functions can be met.  Not part of the model of the engine.
-/

namespace Gost
namespace Der

/-- Length octets. -/
def len (n : Nat) : Bytes :=
  if n < 128 then [BitVec.ofNat 8 n]
  else if n < 256 then [0x81, BitVec.ofNat 8 n]
  else [0x82, BitVec.ofNat 8 (n / 256), BitVec.ofNat 8 n]

/-- Tag, length, contents. -/
def tlv (t : Byte) (b : Bytes) : Bytes := t :: (len b.length ++ b)

/-- Cut `n` bytes. -/
def cut (t : Byte) (n : Nat) (r : Bytes) : Option (Byte × Bytes × Bytes) :=
  if n ≤ r.length then some (t, r.take n, r.drop n) else none

/-- Read one element: tag, contents and what follows. -/
def untlv : Bytes → Option (Byte × Bytes × Bytes)
  | t :: l :: r =>
    if l.toNat < 128 then cut t l.toNat r
    else if l = 0x81 then
      match r with
      | n :: r => cut t n.toNat r
      | _ => none
    else if l = 0x82 then
      match r with
      | h :: n :: r => cut t (h.toNat * 256 + n.toNat) r
      | _ => none
    else none
  | _ => none

/-- The contents of an element with an expected tag, and what follows. -/
def expect (t : Byte) (b : Bytes) : Option (Bytes × Bytes) :=
  match untlv b with
  | some (u, c, r) => if u = t then some (c, r) else none
  | none => none

theorem cut_append (t : Byte) (b r : Bytes) : cut t b.length (b ++ r) = some (t, b, r) := by
  unfold cut
  rw [if_pos (by simp), List.take_left, List.drop_left]

theorem untlv_tlv (t : Byte) (b r : Bytes) (h : b.length < 65536) : untlv (tlv t b ++ r) = some (t, b, r) := by
  unfold tlv len
  split
  · rename_i h1
    have e : (BitVec.ofNat 8 b.length).toNat = b.length := by rw [BitVec.toNat_ofNat]; omega
    simp only [List.cons_append, List.nil_append, untlv]
    rw [e, if_pos h1]
    exact cut_append t b r
  · split
    · rename_i h1 h2
      have e : (BitVec.ofNat 8 b.length).toNat = b.length := by rw [BitVec.toNat_ofNat]; omega
      simp only [List.cons_append, List.nil_append, untlv]
      rw [if_neg (by decide), if_pos trivial, e]
      exact cut_append t b r
    · rename_i h1 h2
      have e : (BitVec.ofNat 8 (b.length / 256)).toNat * 256 + (BitVec.ofNat 8 b.length).toNat = b.length := by
        rw [BitVec.toNat_ofNat, BitVec.toNat_ofNat]; omega
      simp only [List.cons_append, List.nil_append, untlv]
      rw [if_neg (by decide), if_neg (by decide), if_pos trivial, e]
      exact cut_append t b r

theorem expect_tlv (t : Byte) (b r : Bytes) (h : b.length < 65536) : expect t (tlv t b ++ r) = some (b, r) := by
  unfold expect
  rw [untlv_tlv t b r h]
  exact if_pos rfl

theorem expect_tlv' (t : Byte) (b : Bytes) (h : b.length < 65536) : expect t (tlv t b) = some (b, []) := by
  have := expect_tlv t b [] h
  rwa [List.append_nil] at this

theorem tlv_length (t : Byte) (b : Bytes) : (tlv t b).length ≤ b.length + 4 := by
  unfold tlv len
  split
  · simp
  split <;> simp

end Der
end Gost
