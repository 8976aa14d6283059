import Verif.Props.TlsRecord

/-!
# C89: the keystream of TLS connections

The keystream blocks of a connection with OMAC are values of the block cipher; no two of them are made from the same key and the same counter
block, unless two named computations of HMAC collide.
-/

namespace Gost.Spec

/-- What keystream block number `a` of record number `i` is made from: the key, and the block that is encrypted with it (the upper half is
the IV plus the number of the record, the lower half counts the blocks). -/
def tlsInput (hmac : Bytes → Bytes → Bytes) (n : OmacCipher) (key iv : Bytes) (i a : Nat) : Bytes × Bytes :=
  (tlstree hmac n key i, beBytes n.block ((beNat iv + i) % 256^(n.block / 2) * 256^(n.block / 2) + a))

end Gost.Spec

namespace Gost
open Spec

theorem protect_get (F : List Rec → Rec → Bytes) (rs : List Rec) : ∀ (h : List Rec) (i : Nat),
    (protect F h rs)[i]? = (rs[i]?).map fun r => (r.1, F (h ++ rs.take i) r) := by
  induction rs with
  | nil => intro h i; rfl
  | cons r rs ih =>
    intro h i
    cases i with
    | zero => simp [protect]
    | succ i =>
      show (protect F (h ++ [r]) rs)[i]? = (rs[i]?).map _
      rw [ih]
      simp

theorem beNat_replicate_zero (n : Nat) : beNat (List.replicate n 0) = 0 := by
  induction n with
  | zero => rfl
  | succ n ih => rw [List.replicate_succ', beNat_concat, ih]; rfl

/-- The counter blocks of a record. -/
theorem ctrBlock_tls (n : OmacCipher) (iv : Bytes) (i a : Nat) :
    ctrBlock n.block (beBytes (n.block / 2) (beNat iv + i) ++ List.replicate (n.block / 2) 0) a =
      beBytes n.block ((beNat iv + i) % 256^(n.block / 2) * 256^(n.block / 2) + a) := by
  unfold ctrBlock
  rw [beNat_append, beNat_beBytes, List.length_replicate, beNat_replicate_zero, Nat.add_zero]

/-- The fragment of a record, byte by byte. -/
theorem fragment_bytes (hmac : Bytes → Bytes → Bytes) (cmac E : OmacCipher → Bytes → Bytes → Bytes) (n : OmacCipher) (ek mk iv : Bytes)
    (sent : List Rec) (r : Rec) :
    omacFragment hmac cmac E n ek mk iv sent r =
      (r.2 ++ cmac n (tlstree hmac n mk (sent.length % 2^64)) (macData (sent.length % 2^64) r)).mapIdx fun p x =>
        x ^^^ (E n (tlsInput hmac n ek iv (sent.length % 2^64) (p / n.block)).1 (tlsInput hmac n ek iv (sent.length % 2^64) (p / n.block)).2).getD
          (p % n.block) 0 := by
  unfold omacFragment ctrCrypt xorStream ctrGamma
  simp only [ctrBlock_tls]
  rfl

theorem block_inj (n : OmacCipher) (u v a b : Nat) (ha : a < 256^(n.block / 2)) (hb : b < 256^(n.block / 2))
    (h : beBytes n.block (u % 256^(n.block / 2) * 256^(n.block / 2) + a) = beBytes n.block (v % 256^(n.block / 2) * 256^(n.block / 2) + b)) :
    u % 256^(n.block / 2) = v % 256^(n.block / 2) ∧ a = b := by
  have h := congrArg beNat h
  rw [beNat_beBytes, beNat_beBytes] at h
  cases n
  · simp only [OmacCipher.block] at *
    norm_num at *
    omega
  · simp only [OmacCipher.block] at *
    norm_num at *
    omega

/-- **C89** Within a window of records that share their key (4096 with Magma, 64 with Kuznyechik) all counter blocks differ: of the same record
(up to 2^32 or 2^64 blocks), and of different ones. -/
theorem C89_window (hmac : Bytes → Bytes → Bytes) (n : OmacCipher) (key iv : Bytes) (i j a b : Nat) (ha : a < 256^(n.block / 2))
    (hb : b < 256^(n.block / 2)) (hw : i / tlsWindow n = j / tlsWindow n)
    (h : (tlsInput hmac n key iv i a).2 = (tlsInput hmac n key iv j b).2) : i = j ∧ a = b := by
  obtain ⟨h1, h2⟩ := block_inj n _ _ a b ha hb h
  refine ⟨?_, h2⟩
  cases n
  · simp only [OmacCipher.block, tlsWindow] at *
    norm_num at *
    omega
  · simp only [OmacCipher.block, tlsWindow] at *
    norm_num at *
    omega

/-- **C89** Two different keystream blocks of a connection (of any records below 2^64) are made from different inputs of the block cipher, unless
the last HMAC computations for the two records, whose messages then differ, give the same value. -/
theorem C89_no_reuse (hmac : Bytes → Bytes → Bytes) (n : OmacCipher) (key iv : Bytes) (i j a b : Nat) (hi : i < 2^64) (hj : j < 2^64)
    (ha : a < 256^(n.block / 2)) (hb : b < 256^(n.block / 2)) (h : tlsInput hmac n key iv i a = tlsInput hmac n key iv j b) :
    (i = j ∧ a = b) ∨
    (tlsLastMessage (tlsSeed i (tlsShifts n).2.2) ≠ tlsLastMessage (tlsSeed j (tlsShifts n).2.2) ∧
      hmac (tlsLastKey hmac n key i) (tlsLastMessage (tlsSeed i (tlsShifts n).2.2)) =
        hmac (tlsLastKey hmac n key j) (tlsLastMessage (tlsSeed j (tlsShifts n).2.2))) := by
  by_cases hw : i / tlsWindow n = j / tlsWindow n
  · exact Or.inl (C89_window hmac n key iv i j a b ha hb hw (congrArg Prod.snd h))
  · exact Or.inr ⟨tlsLast_differs n i j hi hj hw, congrArg Prod.fst h⟩

/-- **C89** The engine makes its keystream from these inputs: record number `i` of whatever is sent over a Kuznyechik connection. -/
theorem C89_kuznyechik (X : Crypto) (ek mk iv : Bytes) (hek : ek.length = 32) (hmk : mk.length = 32) (hiv : iv.length = 8)
    (rs : List Rec) (hn : rs.length ≤ 2^64) :
    ∃ hash e, omacKeyed X .kuznyechik mk = some hash ∧
      tlsAll (tlsSeal (kuzSuite X)) ⟨hash, kCtrSession true ek iv, beBytes 8 0⟩ rs = some e ∧
      ∀ (i : Nat) (r : Rec), rs[i]? = some r → e.2[i]? = some (r.1,
        (r.2 ++ X.cmac .kuznyechik (tlstree X.hmac .kuznyechik mk i) (macData i r)).mapIdx fun p x =>
          x ^^^ (engineE .kuznyechik (tlsInput X.hmac .kuznyechik ek iv i (p / 16)).1 (tlsInput X.hmac .kuznyechik ek iv i (p / 16)).2).getD
            (p % 16) 0) := by
  obtain ⟨hash, e, h1, h2, -⟩ := C88_kuznyechik_sent X ek mk iv hek hmk hiv rs
  refine ⟨hash, _, h1, h2, fun i r hr => ?_⟩
  have hil : i < rs.length := (List.getElem?_eq_some_iff.1 hr).1
  have hl : (([] : List Rec) ++ rs.take i).length % 2^64 = i := by
    rw [List.nil_append, List.length_take, Nat.min_eq_left (Nat.le_of_lt hil)]
    omega
  show (protect _ [] rs)[i]? = _
  rw [protect_get, hr, Option.map_some, fragment_bytes, hl]
  rfl

/-- **C89** The same for Magma. -/
theorem C89_magma (X : Crypto) (rng : Nat → Fin 8 → W32) (ek mk iv : Bytes) (hek : ek.length = 32) (hmk : mk.length = 32)
    (hiv : iv.length = 4) (rs : List Rec) (hn : rs.length ≤ 2^64) :
    ∃ hash e, omacKeyed X .magma mk = some hash ∧
      tlsAll (tlsSeal (magmaSuite X)) ⟨hash, magmaSession rng true 4 false ek iv, beBytes 8 0⟩ rs = some e ∧
      ∀ (i : Nat) (r : Rec), rs[i]? = some r → e.2[i]? = some (r.1,
        (r.2 ++ X.cmac .magma (tlstree X.hmac .magma mk i) (macData i r)).mapIdx fun p x =>
          x ^^^ (engineE .magma (tlsInput X.hmac .magma ek iv i (p / 8)).1 (tlsInput X.hmac .magma ek iv i (p / 8)).2).getD (p % 8) 0) := by
  obtain ⟨hash, e, h1, h2, -⟩ := C88_magma_sent X rng ek mk iv hek hmk hiv rs
  refine ⟨hash, _, h1, h2, fun i r hr => ?_⟩
  have hil : i < rs.length := (List.getElem?_eq_some_iff.1 hr).1
  have hl : (([] : List Rec) ++ rs.take i).length % 2^64 = i := by
    rw [List.nil_append, List.length_take, Nat.min_eq_left (Nat.le_of_lt hil)]
    omega
  show (protect _ [] rs)[i]? = _
  rw [protect_get, hr, Option.map_some, fragment_bytes, hl]
  rfl

/-- Witness: blocks of neighbouring records in one window, with an IV whose sum with the record number wraps; records of different windows. -/
example : (tlsInput (fun _ _ => zeros 32) .magma (zeros 32) [255, 255, 255, 255] 0 5).2 = [255, 255, 255, 255, 0, 0, 0, 5] ∧
    (tlsInput (fun _ _ => zeros 32) .magma (zeros 32) [255, 255, 255, 255] 1 5).2 = [0, 0, 0, 0, 0, 0, 0, 5] ∧
    0 / tlsWindow .magma = 1 / tlsWindow .magma ∧ 63 / tlsWindow .kuznyechik ≠ 64 / tlsWindow .kuznyechik := by
  decide +kernel

end Gost
