import Verif.Model.CipherTrace
import Verif.Model.SBoxes
import Verif.Lemmas.Gost89
import Verif.Lemmas.Kuznyechik
import Verif.Lemmas.KuzField

/-!
# C92: what the table accesses of the block ciphers tell about the key
-/

namespace Gost

/-! ## What an observer computes

The observer knows the plaintext block, the public tables, and the accesses of one encryption. -/

/-- The sum of half block and round key, from the four indices of a round. -/
def seenWord (b87 b65 b43 b21 : Byte) : W32 := le32 b21 b43 b65 b87

/-- The round keys, from the two halves of the plaintext and the accesses: each round shows the sum; the half block is known. -/
def seenKeys (box : KBox) : W32 × W32 → List Lookup → List W32
  | n, .k87 a :: .k65 b :: .k43 c :: .k21 d :: rest =>
    let x := seenWord a b c d
    (x - n.1) :: seenKeys box (n.2 ^^^ f box x, n.1) rest
  | _, _ => []

/-- The key of GOST 28147-89: the first eight round keys, little-endian. -/
def seenKey89 (box : KBox) (plain : Bytes) (trace : List Lookup) : Bytes :=
  ((seenKeys box (loadLE plain) trace).take 8).flatMap fun w => [byteOf w 0, byteOf w 1, byteOf w 2, byteOf w 3]

/-- The key of Magma: the same, big-endian. -/
def seenKeyMagma (box : KBox) (plain : Bytes) (trace : List Lookup) : Bytes :=
  ((seenKeys box (loadBE plain) trace).take 8).flatMap fun w => [byteOf w 3, byteOf w 2, byteOf w 1, byteOf w 0]

/-- The index of an access. -/
def Lookup.index : Lookup → Byte
  | .k87 i | .k65 i | .k43 i | .k21 i | .pil _ i => i

/-- The key of Kuznyechik: the first 16 indices are plaintext XOR first half; the block after the first round is then known, and
the next 16 indices are that block XOR second half. -/
def seenKeyKuz (plain : Bytes) (trace : List Lookup) : Bytes :=
  let x0 := (trace.take 16).map Lookup.index
  let x1 := ((trace.drop 16).take 16).map Lookup.index
  xorB x0 plain ++ xorB x1 (grasshopper_append128multi x0 grasshopper_pil_enc128)

/-- The table of an access, without the index. -/
def Lookup.table : Lookup → Nat × Nat
  | .k87 _ => (0, 0) | .k65 _ => (0, 1) | .k43 _ => (0, 2) | .k21 _ => (0, 3) | .pil r _ => (1, r)

/-! ## GOST 28147-89 and Magma -/

theorem fT_value (c : KBox) (x : W32) : (fT c x).1 = f c x := rfl

theorem low_byte (y : W32) : (y &&& 255).setWidth 8 = (y.setWidth 8 : Byte) := by
  apply BitVec.eq_of_toNat_eq
  simp only [BitVec.toNat_setWidth, BitVec.toNat_and]
  rw [show ((255 : W32)).toNat = 2 ^ 8 - 1 from rfl, Nat.and_two_pow_sub_one_eq_mod, Nat.mod_mod]

theorem seenWord_fT (x : W32) : seenWord ((x >>> 24 &&& 255).setWidth 8) ((x >>> 16 &&& 255).setWidth 8)
    ((x >>> 8 &&& 255).setWidth 8) ((x &&& 255).setWidth 8) = x := by
  unfold seenWord
  simp only [low_byte]
  have := le32_byteOf x
  simpa [byteOf] using this

theorem seenKeys_fT (box : KBox) (n : W32 × W32) (k : W32) (rest : List Lookup) :
    seenKeys box n ((fT box (n.1 + k)).2 ++ rest) = k :: seenKeys box (n.2 ^^^ f box (n.1 + k), n.1) rest := by
  unfold fT
  simp only [List.cons_append, List.nil_append, seenKeys, seenWord_fT]
  rw [BitVec.add_comm n.1 k, BitVec.add_sub_cancel]

theorem round2T_spec (c : Ctx) : ∀ (l : List (Fin 8 × Fin 8)) (s : W32 × W32) (t : List Lookup),
    (l.foldl (round2T c) (s, t)).1 = l.foldl (round2 c) s ∧
    ∃ u, (l.foldl (round2T c) (s, t)).2 = t ++ u ∧
      seenKeys c.box s u = l.flatMap (fun ij => [c.key ij.1 + c.mask ij.1, c.key ij.2 + c.mask ij.2]) ∧
      u.map Lookup.table = l.flatMap (fun _ => [(0, 0), (0, 1), (0, 2), (0, 3), (0, 0), (0, 1), (0, 2), (0, 3)]) := by
  intro l
  induction l with
  | nil => intro s t; exact ⟨rfl, [], by simp, rfl, rfl⟩
  | cons ij l ih =>
    intro s t
    simp only [List.foldl_cons, List.flatMap_cons]
    obtain ⟨e1, u, e2, e3, e4⟩ := ih (round2T c (s, t) ij).1 (round2T c (s, t) ij).2
    refine ⟨e1, (fT c.box (s.1 + c.key ij.1 + c.mask ij.1)).2 ++
      ((fT c.box ((s.2 ^^^ f c.box (s.1 + c.key ij.1 + c.mask ij.1)) + c.key ij.2 + c.mask ij.2)).2 ++ u), ?_, ?_, ?_⟩
    · rw [show (round2T c (s, t) ij) = ((round2T c (s, t) ij).1, (round2T c (s, t) ij).2) from rfl, e2]
      simp [round2T, fT_value]
    · rw [BitVec.add_assoc s.1, BitVec.add_assoc (s.2 ^^^ _), seenKeys_fT, seenKeys_fT (n := (s.2 ^^^ f c.box (s.1 + (c.key ij.1 + c.mask ij.1)), s.1))]
      simp only [List.cons_append, List.nil_append]
      refine congrArg _ (congrArg _ ?_)
      rw [← e3]
      simp only [round2T, fT_value, BitVec.add_assoc]
    · simp only [List.map_append, e4]
      rfl

theorem take8 (c : Ctx) : (encSched.flatMap (fun ij => [c.key ij.1 + c.mask ij.1, c.key ij.2 + c.mask ij.2])).take 8
    = (List.finRange 8).map (fun i => c.key i + c.mask i) := rfl

/-- **C92**: the function with accesses computes what `gostcrypt` computes. -/
theorem C92_gost89_value (c : Ctx) (inp : Bytes) : (gostcryptT c inp).1 = gostcrypt c inp := by
  unfold gostcryptT gostcrypt
  dsimp only
  rw [(round2T_spec c encSched (loadLE inp) []).1]

/-- **C92**: the same for `magmacrypt`. -/
theorem C92_magma_value (c : Ctx) (inp : Bytes) : (magmacryptT c inp).1 = magmacrypt c inp := by
  unfold magmacryptT magmacrypt
  dsimp only
  rw [(round2T_spec c encSched (loadBE inp) []).1]

/-- **C92**, the part that holds: which tables are read, how often and in which order does not depend on the key, the mask, the
tables or the block. -/
theorem C92_gost89_tables_partial (c c' : Ctx) (inp inp' : Bytes) :
    (gostcryptT c inp).2.map Lookup.table = (gostcryptT c' inp').2.map Lookup.table ∧ (gostcryptT c inp).2.length = 128 := by
  obtain ⟨-, u, e2, -, e4⟩ := round2T_spec c encSched (loadLE inp) []
  obtain ⟨-, u', e2', -, e4'⟩ := round2T_spec c' encSched (loadLE inp') []
  unfold gostcryptT
  simp only [e2, e2', List.nil_append, e4, e4', true_and]
  rw [← List.length_map (f := Lookup.table), e4]; rfl

/-- **C92**, the part that holds, for Magma. -/
theorem C92_magma_tables_partial (c c' : Ctx) (inp inp' : Bytes) :
    (magmacryptT c inp).2.map Lookup.table = (magmacryptT c' inp').2.map Lookup.table ∧ (magmacryptT c inp).2.length = 128 := by
  obtain ⟨-, u, e2, -, e4⟩ := round2T_spec c encSched (loadBE inp) []
  obtain ⟨-, u', e2', -, e4'⟩ := round2T_spec c' encSched (loadBE inp') []
  unfold magmacryptT
  simp only [e2, e2', List.nil_append, e4, e4', true_and]
  rw [← List.length_map (f := Lookup.table), e4]; rfl

/-- **C92**, the part that is false: the indices show the whole key.  Whatever the key, the tables, the mask drawn for the key, and
the block: who knows the block computes the key from the accesses of its encryption. -/
theorem C92_gost89_indices_show_key_false (c : Ctx) (key plain : Bytes) (hk : key.length = 32) :
    seenKey89 c.box plain (gostcryptT (gost_key c key) plain).2 = key := by
  obtain ⟨-, u, e2, e3, -⟩ := round2T_spec (gost_key c key) encSched (loadLE plain) []
  unfold seenKey89 gostcryptT
  simp only [e2, List.nil_append]
  rw [show c.box = (gost_key c key).box from rfl, e3, take8]
  refine Eq.trans ?_ (gost_get_key_set c key hk)
  unfold gost_get_key
  rw [List.flatMap_map]

/-- **C92**, the part that is false, for Magma. -/
theorem C92_magma_indices_show_key_false (c : Ctx) (key plain : Bytes) (hk : key.length = 32) :
    seenKeyMagma c.box plain (magmacryptT (magma_key c key) plain).2 = key := by
  obtain ⟨-, u, e2, e3, -⟩ := round2T_spec (magma_key c key) encSched (loadBE plain) []
  unfold seenKeyMagma magmacryptT
  simp only [e2, List.nil_append]
  rw [show c.box = (magma_key c key).box from rfl, e3, take8]
  refine Eq.trans ?_ (magma_get_key_set c key hk)
  unfold magma_get_key
  rw [List.flatMap_map]

/-! ## Kuznyechik -/

theorem append128multiT_spec (x : Bytes) :
    append128multiT x = (grasshopper_append128multi x grasshopper_pil_enc128, (List.range 16).map fun i => Lookup.pil i (at_ x i)) := by
  have key : ∀ (l : List Nat) (a : Bytes) (t : List Lookup),
      l.foldl (fun (a : Bytes × List Lookup) i =>
        (xorB a.1 (grasshopper_pil_enc128 i (at_ x i)), a.2 ++ [Lookup.pil i (at_ x i)])) (a, t)
      = (l.foldl (fun result i => xorB result (grasshopper_pil_enc128 i (at_ x i))) a, t ++ l.map fun i => Lookup.pil i (at_ x i)) := by
    intro l
    induction l with
    | nil => intro a t; simp
    | cons i l ih =>
      intro a t
      rw [List.foldl_cons, ih, List.foldl_cons, List.map_cons, List.append_assoc]
      rfl
  exact key (List.range 16) (zeros 16) []

theorem kuzT_spec (sk : Nat → Bytes) : ∀ (l : List Nat) (a : Bytes) (t : List Lookup),
    let r := l.foldl (fun (a : Bytes × List Lookup) i =>
      let r := append128multiT (xorB a.1 (sk i))
      (r.1, a.2 ++ r.2)) (a, t)
    r.1 = l.foldl (fun target i => grasshopper_append128multi (xorB target (sk i)) grasshopper_pil_enc128) a ∧
    ∃ u, r.2 = t ++ u ∧ u.map Lookup.table = l.flatMap (fun _ => (List.range 16).map fun i => (1, i)) := by
  intro l
  induction l with
  | nil => intro a t; exact ⟨rfl, [], by simp, rfl⟩
  | cons i l ih =>
    intro a t
    obtain ⟨e1, u, e2, e3⟩ := ih (append128multiT (xorB a (sk i))).1 (t ++ (append128multiT (xorB a (sk i))).2)
    simp only [List.foldl_cons, List.flatMap_cons]
    refine ⟨by rw [e1, append128multiT_spec], (append128multiT (xorB a (sk i))).2 ++ u, ?_, ?_⟩
    · rw [e2, List.append_assoc]
    · rw [List.map_append, e3, append128multiT_spec]
      rfl

theorem multi_length (x : Bytes) : (grasshopper_append128multi x grasshopper_pil_enc128).length = 16 := by
  have key : ∀ (l : List Nat) (a : Bytes), a.length = 16 →
      (l.foldl (fun result i => xorB result (grasshopper_pil_enc128 i (at_ x i))) a).length = 16 := by
    intro l
    induction l with
    | nil => intro a h; exact h
    | cons i l ih => intro a h; exact ih _ (by simp [h, grasshopper_pil_enc128, tab128])
  exact key _ _ (by simp [zeros])

/-- **C92**: the function with accesses computes what `grasshopper_encrypt_block` computes. -/
theorem C92_kuznyechik_value (sk : Nat → Bytes) (b : Bytes) : (grasshopper_encrypt_blockT sk b).1 = grasshopper_encrypt_block sk b := by
  unfold grasshopper_encrypt_blockT grasshopper_encrypt_block
  dsimp only
  rw [(kuzT_spec sk (List.range 9) b []).1]

/-- **C92**, the part that holds, for Kuznyechik. -/
theorem C92_kuznyechik_tables_partial (sk sk' : Nat → Bytes) (b b' : Bytes) :
    (grasshopper_encrypt_blockT sk b).2.map Lookup.table = (grasshopper_encrypt_blockT sk' b').2.map Lookup.table ∧
    (grasshopper_encrypt_blockT sk b).2.length = 144 := by
  obtain ⟨-, u, e2, e3⟩ := kuzT_spec sk (List.range 9) b []
  obtain ⟨-, u', e2', e3'⟩ := kuzT_spec sk' (List.range 9) b' []
  unfold grasshopper_encrypt_blockT
  dsimp only
  rw [e2, e2', List.nil_append, List.nil_append, e3, e3']
  refine ⟨rfl, ?_⟩
  rw [← List.length_map (f := Lookup.table), e3]; rfl

theorem map_at (x : Bytes) (h : x.length = 16) : (List.range 16).map (fun i => at_ x i) = x := by
  apply List.ext_getElem
  · simp [h]
  · intro i h1 h2
    simp [h2]

/-- **C92**, the part that is false: the indices show the whole key of Kuznyechik. -/
theorem C92_kuznyechik_indices_show_key_false (key plain : Bytes) (hk : key.length = 32) (hp : plain.length = 16) :
    seenKeyKuz plain (grasshopper_encrypt_blockT (grasshopper_set_encrypt_key key) plain).2 = key := by
  have k0 : grasshopper_set_encrypt_key key 0 = key.take 16 := by
    rw [set_encrypt_key_eq key hk 0 (by omega)]; rfl
  have k1 : grasshopper_set_encrypt_key key 1 = key.drop 16 := by
    rw [set_encrypt_key_eq key hk 1 (by omega)]; rfl
  have l0 : (xorB plain (key.take 16)).length = 16 := by simp [hk, hp]
  generalize grasshopper_set_encrypt_key key = sk at k0 k1
  -- the first two rounds
  have h9 : List.range 9 = 0 :: 1 :: List.range' 2 7 := rfl
  unfold grasshopper_encrypt_blockT
  dsimp only
  rw [h9, List.foldl_cons, List.foldl_cons]
  obtain ⟨-, u, e2, -⟩ := kuzT_spec sk (List.range' 2 7)
    (append128multiT (xorB (append128multiT (xorB plain (sk 0))).1 (sk 1))).1
    ([] ++ (append128multiT (xorB plain (sk 0))).2 ++ (append128multiT (xorB (append128multiT (xorB plain (sk 0))).1 (sk 1))).2)
  rw [e2, k0, k1, append128multiT_spec (xorB plain (key.take 16))]
  dsimp only
  have l1 : (grasshopper_append128multi (xorB plain (key.take 16)) grasshopper_pil_enc128).length = 16 := multi_length _
  generalize hx : grasshopper_append128multi (xorB plain (key.take 16)) grasshopper_pil_enc128 = y at l1 ⊢
  have l2 : (xorB y (key.drop 16)).length = 16 := by simp [hk, l1]
  rw [append128multiT_spec (xorB y (key.drop 16))]
  unfold seenKeyKuz
  dsimp only
  have t0 : (([] ++ (List.range 16).map (fun i => Lookup.pil i (at_ (xorB plain (key.take 16)) i)) ++
      (List.range 16).map (fun i => Lookup.pil i (at_ (xorB y (key.drop 16)) i)) ++ u).take 16).map Lookup.index
      = xorB plain (key.take 16) := by
    rw [List.nil_append, List.append_assoc, List.take_left' (by simp), List.map_map]
    exact map_at _ l0
  have t1 : ((([] ++ (List.range 16).map (fun i => Lookup.pil i (at_ (xorB plain (key.take 16)) i)) ++
      (List.range 16).map (fun i => Lookup.pil i (at_ (xorB y (key.drop 16)) i)) ++ u).drop 16).take 16).map Lookup.index
      = xorB y (key.drop 16) := by
    rw [List.nil_append, List.append_assoc, List.drop_left' (by simp), List.take_left' (by simp), List.map_map]
    exact map_at _ l2
  rw [t0, t1, hx, xorB_comm plain, xorB_comm y, xorB_xorB_cancel _ _ (by simp [hk, hp]), xorB_xorB_cancel _ _ (by simp [hk, l1]),
    List.take_append_drop]

/-! ## Concrete cases -/

/-- Context with a mask that is not zero. -/
def traceCtx : Ctx where
  key := fun _ => 0
  mask := fun _ => 0
  box := kboxinit Gost28147_TC26ParamSetZ
  rng := fun n i => BitVec.ofNat 32 (0x12345679 * (n + 1) + 77777777 * i.val)

def traceKey : Bytes := (List.range 32).map fun i => BitVec.ofNat 8 (7 * i + 3)

/-- The observer's computation, evaluated: the stored words are not those of the key, but the accesses show the key. -/
example : (gost_key traceCtx traceKey).key 0 ≠ le32 3 10 17 24 ∧
    seenKey89 traceCtx.box [1, 2, 3, 4, 5, 6, 7, 8] (gostcryptT (gost_key traceCtx traceKey) [1, 2, 3, 4, 5, 6, 7, 8]).2 = traceKey ∧
    seenKeyMagma traceCtx.box [1, 2, 3, 4, 5, 6, 7, 8] (magmacryptT (magma_key traceCtx traceKey) [1, 2, 3, 4, 5, 6, 7, 8]).2
      = traceKey := by decide +kernel

example : seenKeyKuz (zeros 16) (grasshopper_encrypt_blockT (grasshopper_set_encrypt_key traceKey) (zeros 16)).2 = traceKey :=
  C92_kuznyechik_indices_show_key_false traceKey (zeros 16) (by decide) (by decide)

end Gost
