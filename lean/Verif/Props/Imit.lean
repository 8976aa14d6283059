import Verif.Lemmas.Imit
import Verif.Props.Reinit

/-!
# The GOST 28147-89 MAC digest (C18, C19, and the MAC step of C54)

C18 is *false* of the code for messages of exactly eight bytes: `gost_imit_final` adds the second (zero) block of a
one-block message only while no block has been processed, and `gost_imit_update` processes the eight bytes at once
when they were not delivered by a single call.
-/

namespace Gost
open Spec

/-- A MAC session: any earlier context `c`, the key is set (which re-initialises), the tag size is set to `size`, the
chunks are fed, the tag is read. `none`: some call failed. -/
def imitMac (c : ImitCtx) (b : SubstBlock) (param : Option SubstBlock) (key : Bytes) (size : Int) (chunks : List Bytes) :
    Option Bytes :=
  let r := gost_imit_set_len (gost_imit_set_key c b param key) size
  if r.2 ≠ 1 then none
  else
    let c := chunks.foldl (fun (st : Option ImitCtx) d => st.bind fun c =>
      if (gost_imit_update c d).2 = 1 then some (gost_imit_update c d).1 else none) (some r.1)
    c.bind gost_imit_final

theorem imit_feed_inv (c0 : ImitCtx) (hks : c0.key_set = true) (chunks : List Bytes) (m : Bytes) (c : ImitCtx)
    (h : ImitInv c0 m c) :
    ∃ c', chunks.foldl (fun (st : Option ImitCtx) d => st.bind fun c =>
      if (gost_imit_update c d).2 = 1 then some (gost_imit_update c d).1 else none) (some c) = some c' ∧
      ImitInv c0 (m ++ chunks.flatten) c' := by
  induction chunks generalizing m c with
  | nil => exact ⟨c, rfl, by simpa using h⟩
  | cons d ds ih =>
    obtain ⟨h1, h2⟩ := imit_update_inv c0 c m d hks h
    obtain ⟨c', h3, h4⟩ := ih _ _ h1
    refine ⟨c', ?_, by simpa using h4⟩
    rw [List.foldl_cons, Option.bind_some, if_pos h2]
    exact h3

theorem imitMac_eq (c : ImitCtx) (b : SubstBlock) (param : Option SubstBlock) (key : Bytes) (hk : key.length = 32)
    (size : Nat) (h1 : 1 ≤ size) (h8 : size ≤ 8) (chunks : List Bytes) :
    ∃ bs p, chunks.flatten = bs.flatten ++ p ∧ (∀ b ∈ bs, b.length = 8) ∧ p.length ≤ 8 ∧
      imitMac c b param key size chunks =
        some ((macMeshFold (M89 (kboxinit (param.getD b))) (mesh89 (kboxinit (param.getD b))) key 0 (zeros 8)
          (finalBlocks bs p)).take size) := by
  have hr : gost_imit_set_len (gost_imit_set_key c b param key) size =
      ({ gost_imit_set_key c b param key with dgst_size := size }, 1) := by
    unfold gost_imit_set_len
    rw [if_neg (by omega)]; rfl
  unfold imitMac
  rw [hr]
  simp only [ne_eq, not_true, if_false]
  have hc0 : ∀ c0 : ImitCtx, c0 = { gost_imit_set_key c b param key with dgst_size := size } →
      c0.key_set = true ∧ c0.count = 0 ∧ c0.bytes_left = 0 ∧ c0.partial_block = zeros 8 ∧ c0.buffer = zeros 8 ∧
      c0.key_meshing = true ∧ c0.dgst_size = size ∧ c0.cctx.box = kboxinit (param.getD b) ∧
      gost_get_key c0.cctx = key := by
    rintro c0 rfl
    cases param with
    | none => exact ⟨rfl, rfl, rfl, rfl, rfl, rfl, rfl, rfl, gost_get_key_set _ _ hk⟩
    | some b' => exact ⟨rfl, rfl, rfl, rfl, rfl, rfl, rfl, rfl, gost_get_key_set _ _ hk⟩
  generalize hg : { gost_imit_set_key c b param key with dgst_size := size } = c0
  obtain ⟨e1, e2, e3, e4, e5, e6, e7, e8, e9⟩ := hc0 c0 hg.symm
  obtain ⟨c', f1, f2⟩ := imit_feed_inv c0 e1 chunks [] c0
    ⟨[], [], rfl, by simp, by simp [e3], by simp, by rw [e4]; rfl, by simp, rfl⟩
  rw [f1, Option.bind_some]
  obtain ⟨bs, p, g1, g2, g3, g4, g5, g6, g7⟩ := f2
  refine ⟨bs, p, by simpa using g1, g2, g4, ?_⟩
  rw [imit_final_eq c0 c' e1 e2 bs p g3 g4 g5 g6 g7, meshFold_eq _ _ 0 c0 e8 e6 (by simp [e2]), e9, e5, e7]
  simp [get_mac]

/-- **C18** (partial: not for messages of exactly eight bytes) After any earlier use of the context, any sequence of
update calls succeeds and gives the standard's MAC (zero-padded blocks, key meshing every 1024 bytes) of the
concatenation, cut to the requested size. Hence it does not depend on the chunking. -/
theorem C18_mac_any_chunking_partial (c : ImitCtx) (b : SubstBlock) (param : Option SubstBlock) (key : Bytes)
    (hk : key.length = 32) (size : Nat) (h1 : 1 ≤ size) (h8 : size ≤ 8) (chunks : List Bytes)
    (hne : chunks.flatten.length ≠ 8) :
    imitMac c b param key size chunks =
      some ((macMeshFold (M89 (kboxinit (param.getD b))) (mesh89 (kboxinit (param.getD b))) key 0 (zeros 8)
        (macBlocks chunks.flatten)).take size) := by
  obtain ⟨bs, p, e1, e2, e3, e4⟩ := imitMac_eq c b param key hk size h1 h8 chunks
  rw [e4, e1, finalBlocks_eq bs p e2 e3 (Or.inl (by rw [← e1]; exact hne))]

/-- **C18** (partial) The same for an eight-byte message delivered by one update call. -/
theorem C18_mac_single_chunk_partial (c : ImitCtx) (b : SubstBlock) (param : Option SubstBlock) (key : Bytes)
    (hk : key.length = 32) (size : Nat) (h1 : 1 ≤ size) (h8 : size ≤ 8) (m : Bytes) :
    imitMac c b param key size [m] =
      some ((macMeshFold (M89 (kboxinit (param.getD b))) (mesh89 (kboxinit (param.getD b))) key 0 (zeros 8)
        (macBlocks m)).take size) := by
  by_cases hm : m.length = 8
  · -- the loop leaves the eight bytes in the buffer
    have hr : gost_imit_set_len (gost_imit_set_key c b param key) size =
        ({ gost_imit_set_key c b param key with dgst_size := size }, 1) := by
      unfold gost_imit_set_len
      rw [if_neg (by omega)]; rfl
    unfold imitMac
    rw [hr]
    simp only [ne_eq, not_true, if_false, List.foldl_cons, List.foldl_nil, Option.bind_some]
    have hc0 : ∀ c0 : ImitCtx, c0 = { gost_imit_set_key c b param key with dgst_size := size } →
        c0.key_set = true ∧ c0.count = 0 ∧ c0.bytes_left = 0 ∧ c0.partial_block = zeros 8 ∧ c0.buffer = zeros 8 ∧
        c0.key_meshing = true ∧ c0.dgst_size = size ∧ c0.cctx.box = kboxinit (param.getD b) ∧
        gost_get_key c0.cctx = key := by
      rintro c0 rfl
      cases param with
      | none => exact ⟨rfl, rfl, rfl, rfl, rfl, rfl, rfl, rfl, gost_get_key_set _ _ hk⟩
      | some b' => exact ⟨rfl, rfl, rfl, rfl, rfl, rfl, rfl, rfl, gost_get_key_set _ _ hk⟩
    generalize hg : { gost_imit_set_key c b param key with dgst_size := size } = c0
    obtain ⟨e1, e2, e3, e4, e5, e6, e7, e8, e9⟩ := hc0 c0 hg.symm
    have hu : gost_imit_update c0 m = ({ c0 with partial_block := m, bytes_left := 8 }, 1) := by
      unfold gost_imit_update
      rw [if_neg (by simp [e1]), if_neg (by simp [e3]), imitRest, imitLoop, dif_neg (by omega)]
      simp only [hm, e4]
      simp [zeros]
    rw [hu]
    simp only [if_true, Option.bind_some]
    have hmne : m ≠ [] := by rintro rfl; simp at hm
    rw [imit_final_eq c0 { c0 with partial_block := m, bytes_left := 8 } e1 e2 [] m hm (by omega) hm (by simp [List.take_of_length_le]) rfl,
      finalBlocks_eq [] m (by simp) (by omega) (Or.inr hmne),
      meshFold_eq _ _ 0 c0 e8 e6 (by simp [e2]), e9, e5, e7]
    simp [get_mac]
  · have := C18_mac_any_chunking_partial c b param key hk size h1 h8 [m] (by simpa using hm)
    simpa using this

/-- What the chunk completing eight bytes leaves in the buffer: all eight if it brought all of them, else nothing. -/
theorem imit_eighth (c0 c : ImitCtx) (m last : Bytes) (hks : c0.key_set = true) (h : ImitInv c0 m c) (ht : (m ++ last).length = 8) :
    (gost_imit_update c last).1.bytes_left = if last.length = 8 then 8 else 0 := by
  obtain ⟨bs, p, h1, h2, h3, h4, h5, h6, h7⟩ := h
  have hk : c.key_set = true := by rw [icore_key_set h7, (fold_key_set _ _).1, hks]
  have hrest : ∀ (c : ImitCtx) (d : Bytes), d.length ≤ 8 → (imitRest c d).bytes_left = d.length := by
    intro c d hd
    unfold imitRest
    rw [imitLoop, dif_neg (by omega)]
  have hml : m.length = bs.flatten.length + p.length := by rw [h1]; simp
  have hlen : m.length + last.length = 8 := by simpa using ht
  unfold gost_imit_update
  rw [if_neg (by simp [hk])]
  by_cases hb : c.bytes_left = 0
  · rw [if_neg (by simp [hb])]
    simp only
    rw [hrest _ _ (by omega)]
    by_cases hl : last.length = 8
    · rw [if_pos hl, hl]
    · rw [if_neg hl]
      have hbs : bs.flatten.length = m.length := by omega
      cases bs with
      | nil => simp at hbs; omega
      | cons b bs =>
        have := h2 b (by simp)
        simp only [List.flatten_cons, List.length_append] at hbs
        omega
  · rw [if_pos hb]
    have hbs : bs = [] := by
      cases bs with
      | nil => rfl
      | cons b bs =>
        have := h2 b (by simp)
        simp only [List.flatten_cons, List.length_append] at hml
        omega
    subst hbs
    rw [imitFill_eq c.bytes_left c.partial_block last h5 (by omega)]
    simp only [List.flatten_nil, List.length_nil] at hml
    have hi : c.bytes_left + min (8 - c.bytes_left) last.length = 8 := by omega
    simp only [hi, if_true]
    rw [hrest _ _ (by simp; omega), if_neg (by omega)]
    simp; omega

/-- **C18** (what the code does) Every case: the MAC is the standard's, except that a message of exactly eight bytes whose last
update call did not bring all eight is authenticated as one block, without the zero block the standard adds to it. -/
theorem C18_mac_exact_actual (c : ImitCtx) (b : SubstBlock) (param : Option SubstBlock) (key : Bytes)
    (hk : key.length = 32) (size : Nat) (h1 : 1 ≤ size) (h8 : size ≤ 8) (chunks : List Bytes) :
    imitMac c b param key size chunks =
      some ((macMeshFold (M89 (kboxinit (param.getD b))) (mesh89 (kboxinit (param.getD b))) key 0 (zeros 8)
        (if chunks.flatten.length = 8 ∧ chunks.getLast? ≠ some chunks.flatten then [chunks.flatten]
         else macBlocks chunks.flatten)).take size) := by
  by_cases ht : chunks.flatten.length = 8
  · have hr : gost_imit_set_len (gost_imit_set_key c b param key) size =
        ({ gost_imit_set_key c b param key with dgst_size := size }, 1) := by
      unfold gost_imit_set_len
      rw [if_neg (by omega)]; rfl
    unfold imitMac
    rw [hr]
    simp only [ne_eq, not_true, if_false]
    have hc0 : ∀ c0 : ImitCtx, c0 = { gost_imit_set_key c b param key with dgst_size := size } →
        c0.key_set = true ∧ c0.count = 0 ∧ c0.bytes_left = 0 ∧ c0.partial_block = zeros 8 ∧ c0.buffer = zeros 8 ∧
        c0.key_meshing = true ∧ c0.dgst_size = size ∧ c0.cctx.box = kboxinit (param.getD b) ∧
        gost_get_key c0.cctx = key := by
      rintro c0 rfl
      cases param with
      | none => exact ⟨rfl, rfl, rfl, rfl, rfl, rfl, rfl, rfl, gost_get_key_set _ _ hk⟩
      | some b' => exact ⟨rfl, rfl, rfl, rfl, rfl, rfl, rfl, rfl, gost_get_key_set _ _ hk⟩
    generalize hg : { gost_imit_set_key c b param key with dgst_size := size } = c0
    obtain ⟨e1, e2, e3, e4, e5, e6, e7, e8, e9⟩ := hc0 c0 hg.symm
    rcases List.eq_nil_or_concat chunks with rfl | ⟨init, last, rfl⟩
    · simp at ht
    simp only [List.concat_eq_append] at ht ⊢
    obtain ⟨c1, f1, f2⟩ := imit_feed_inv c0 e1 init [] c0
      ⟨[], [], rfl, by simp, by simp [e3], by simp, by rw [e4]; rfl, by simp, rfl⟩
    rw [List.nil_append] at f2
    have ht' : (init.flatten ++ last).length = 8 := by simpa using ht
    have hbl := imit_eighth c0 c1 init.flatten last e1 f2 ht'
    obtain ⟨⟨bs, p, g1, g2, g3, g4, g5, g6, g7⟩, u2⟩ := imit_update_inv c0 c1 init.flatten last e1 f2
    rw [List.foldl_append, f1]
    simp only [List.foldl_cons, List.foldl_nil, Option.bind_some]
    rw [if_pos u2, Option.bind_some, imit_final_eq c0 _ e1 e2 bs p g3 g4 g5 g6 g7, meshFold_eq _ _ 0 c0 e8 e6 (by simp [e2]), e9, e5, e7]
    have hfl : (init ++ [last]).flatten = init.flatten ++ last := by simp
    have hgl : (init ++ [last]).getLast? = some last := by simp
    rw [hfl, hgl]
    have hml : (init.flatten ++ last).length = bs.flatten.length + p.length := by rw [g1]; simp
    by_cases hl : last.length = 8
    · have hi : init.flatten = [] := by
        rw [List.length_append] at ht'
        exact List.length_eq_zero_iff.mp (by omega)
      rw [if_neg (by simp [hi])]
      rw [if_pos hl] at hbl
      have hbs : bs = [] := by
        cases bs with
        | nil => rfl
        | cons b bs =>
          have := g2 b (by simp)
          simp only [List.flatten_cons, List.length_append] at hml ht'
          omega
      subst hbs
      have hp : p = init.flatten ++ last := by simpa using g1.symm
      have hpne : p ≠ [] := by intro e; rw [e] at g3; simp at g3; omega
      rw [finalBlocks_eq [] p (by simp) g4 (Or.inr hpne), ← hp]
      simp [get_mac]
    · rw [if_neg hl] at hbl
      have hp : p = [] := List.length_eq_zero_iff.mp (by omega)
      subst hp
      have hne : ¬ (some last = some (init.flatten ++ last)) := by
        intro e
        have := congrArg List.length (Option.some.inj e)
        omega
      rw [if_pos ⟨ht', hne⟩, g1]
      have hb1 : ∃ b, bs = [b] ∧ b.length = 8 := by
        cases bs with
        | nil => simp at hml; simp at ht'; omega
        | cons b bs =>
          have hb := g2 b (by simp)
          cases bs with
          | nil => exact ⟨b, rfl, hb⟩
          | cons b' bs =>
            have := g2 b' (by simp)
            simp only [List.flatten_cons, List.length_append] at hml ht'
            omega
      obtain ⟨b, rfl, hb⟩ := hb1
      simp [get_mac, finalBlocks]
  · rw [if_neg (fun h => ht h.1)]
    exact C18_mac_any_chunking_partial c b param key hk size h1 h8 chunks ht

/-- The MAC does not depend on what the context was used for before. -/
theorem imitMac_indep (c c' : ImitCtx) (b : SubstBlock) (param : Option SubstBlock) (key : Bytes) (hk : key.length = 32)
    (size : Nat) (h1 : 1 ≤ size) (h8 : size ≤ 8) (chunks : List Bytes) :
    imitMac c b param key size chunks = imitMac c' b param key size chunks := by
  rw [C18_mac_exact_actual c b param key hk size h1 h8, C18_mac_exact_actual c' b param key hk size h1 h8]

/-- **C18** is false of the code: eight bytes fed as 4 + 4 give another MAC than the same eight bytes fed at once. -/
theorem C18_mac_any_chunking_false :
    ¬ ∀ (c : ImitCtx) (b : SubstBlock) (param : Option SubstBlock) (key : Bytes), key.length = 32 →
      ∀ (size : Nat), 1 ≤ size → size ≤ 8 → ∀ chunks : List Bytes,
      imitMac c b param key size chunks = imitMac c b param key size [chunks.flatten] := by
  intro h
  have := h (freshImit witRng) Gost28147_TC26ParamSetZ none sampleKey rfl 8 (by decide) (by decide)
    [[1, 2, 3, 4], [5, 6, 7, 8]]
  revert this
  decide +kernel

/-- **C18** Without a key the update and final calls fail and change nothing. -/
theorem C18_needs_key (c : ImitCtx) (h : c.key_set = false) (data : Bytes) :
    gost_imit_update c data = (c, 0) ∧ gost_imit_final c = none := by
  constructor
  · unfold gost_imit_update; rw [if_pos (by simp [h])]
  · unfold gost_imit_final; rw [if_pos (by simp [h])]

/-- **C18** The tag size control accepts exactly 1 to 8. -/
theorem C18_size_range (c : ImitCtx) (n : Int) : (gost_imit_set_len c n).2 = 1 ↔ 1 ≤ n ∧ n ≤ 8 := by
  unfold gost_imit_set_len
  split
  · simp; omega
  · simp; omega

/-- **C19** For messages of up to 1024 bytes the EVP MAC (one update call) equals the one-shot library MAC of the
same message, for every key, mask and tag size. -/
theorem C19_streaming_mac_equals_oneshot (c : ImitCtx) (b : SubstBlock) (key : Bytes) (hk : key.length = 32)
    (size : Nat) (h1 : 1 ≤ size) (h8 : size ≤ 8) (m : Bytes) (hm : m.length ≤ 1024) (d : Ctx) (hd : d.box = kboxinit b) :
    imitMac c b none key size [m] = some (gost_mac (gost_key d key) (8 * size) m) := by
  rw [C18_mac_single_chunk_partial c b none key hk size h1 h8 m, gost_mac_eq, gost_get_key_set _ _ hk]
  have hb : (gost_key d key).box = kboxinit b := hd
  rw [hb, macMeshFold_short]
  · simp [get_mac]
  · obtain ⟨bs, r, e1, e2, e3⟩ := split8 m
    have hl := flatten_len8 bs e2
    have hlen : m.length = 8 * bs.length + r.length := by rw [e1, List.length_append, hl]
    by_cases hr : r = []
    · by_cases h : bs.length = 1
      · have : m.length = 8 := by rw [hlen, h, hr]; rfl
        have e := finalBlocks_eq [] m (by simp) (by omega) (Or.inr (by rintro rfl; simp at this))
        simp only [List.flatten_nil, List.nil_append] at e
        rw [← e]
        unfold finalBlocks
        split
        · simp
        · simp
      · have e := finalBlocks_eq bs r e2 (by omega) (Or.inl (by rw [← e1, hlen, hr]; simp; omega))
        rw [e1, ← e]
        unfold finalBlocks
        rw [if_pos hr]
        rw [hr] at hlen; simp at hlen; omega
    · have e := finalBlocks_eq bs r e2 (by omega) (Or.inr hr)
      have := List.length_pos_iff.mpr hr
      rw [e1, ← e]
      unfold finalBlocks
      rw [if_neg hr]
      split
      · simp
      · simp; omega

/-- **C19** (any chunking) The same for any sequence of update calls, unless the total is exactly eight bytes. -/
theorem C19_chunked_mac_equals_oneshot (c : ImitCtx) (b : SubstBlock) (key : Bytes) (hk : key.length = 32)
    (size : Nat) (h1 : 1 ≤ size) (h8 : size ≤ 8) (chunks : List Bytes) (hm : chunks.flatten.length ≤ 1024)
    (hne : chunks.flatten.length ≠ 8) (d : Ctx) (hd : d.box = kboxinit b) :
    imitMac c b none key size chunks = some (gost_mac (gost_key d key) (8 * size) chunks.flatten) := by
  rw [← C19_streaming_mac_equals_oneshot c b key hk size h1 h8 chunks.flatten hm d hd,
    C18_mac_any_chunking_partial c b none key hk size h1 h8 chunks hne, C18_mac_single_chunk_partial c b none key hk size h1 h8]

/-- **C54** (MAC step) `mac_block` xors the block into the state and runs the first 16 rounds of the standard's
network, with the round function given by the substitution and the rotation. -/
theorem C54_mac_step_is_standard (c : Ctx) (b : SubstBlock) (hbox : c.box = kboxinit b)
    (hb : ∀ r ∈ b.rows, ∀ v ∈ r, v.toNat < 16) (g : BitVec 32 → BitVec 32)
    (hg : ∀ x i, Spec.nibble ((g x).rotateRight 11) i
      = (at_ (b.rows.getD i.val []) (Spec.nibble x i).toNat).setWidth 4)
    (K : Fin 8 → BitVec 32) (s1 s0 a1 a0 : BitVec 32) :
    let r := Spec.macRounds g K (s1 ^^^ a1) (s0 ^^^ a0)
    mac_block (gost_key c ((List.finRange 8).flatMap fun i => Spec.wordLE (K i)))
        (Spec.wordLE s0 ++ Spec.wordLE s1) (Spec.wordLE a0 ++ Spec.wordLE a1) = Spec.wordLE r.2 ++ Spec.wordLE r.1 := by
  intro r
  have hfg : ∀ x, f c.box x = g x := by
    intro x
    apply rotR_inj
    apply isSubst_unique (nibRows b) x _ _ _ (hg x)
    rw [hbox]
    exact f_nibbles b hb x
  have e : ∀ (w : W32) i, byteOf w i = w.extractLsb' (8 * i) 8 := by
    intro w i
    apply BitVec.eq_of_toNat_eq
    simp [byteOf, Nat.shiftRight_eq_div_pow]
  have hw : ∀ w : W32, le32 (w.extractLsb' 0 8) (w.extractLsb' 8 8) (w.extractLsb' 16 8)
      (w.extractLsb' 24 8) = w := by
    intro w
    simpa only [e] using le32_byteOf w
  have hk : (fun i => (gost_key c ((List.finRange 8).flatMap fun i => Spec.wordLE (K i))).key i +
      (gost_key c ((List.finRange 8).flatMap fun i => Spec.wordLE (K i))).mask i) = K := by
    funext i
    simp only [gost_key, gost_key_impl, BitVec.sub_add_cancel]
    match i with
    | 0 | 1 | 2 | 3 | 4 | 5 | 6 | 7 => exact hw _
  have hl : loadLE (xorB (Spec.wordLE s0 ++ Spec.wordLE s1) (Spec.wordLE a0 ++ Spec.wordLE a1)) = (s0 ^^^ a0, s1 ^^^ a1) := by
    have hx : xorB (Spec.wordLE s0 ++ Spec.wordLE s1) (Spec.wordLE a0 ++ Spec.wordLE a1) =
        Spec.wordLE (s0 ^^^ a0) ++ Spec.wordLE (s1 ^^^ a1) := by
      simp [xorB, Spec.wordLE, BitVec.extractLsb'_xor]
    rw [hx]
    simp only [loadLE, Spec.wordLE, at_]
    exact Prod.ext (hw _) (hw _)
  have hs := rounds_spec g (gost_key c ((List.finRange 8).flatMap fun i => Spec.wordLE (K i))) hfg macSched
    (s0 ^^^ a0, s1 ^^^ a1)
  have hrr : r = (macSched.foldl (round2 (gost_key c ((List.finRange 8).flatMap fun i => Spec.wordLE (K i))))
      (s0 ^^^ a0, s1 ^^^ a1)).swap := by
    rw [hs]
    show Spec.macRounds g K _ _ = _
    unfold Spec.macRounds
    conv_lhs => rw [← hk]
    rfl
  simp only [mac_block, hl]
  rw [hrr]
  simp only [storeLE, e]
  rfl

/-- Non-vacuity: a real session of 20 bytes in uneven pieces against the one-shot function. -/
example : imitMac (freshImit witRng) Gost28147_TC26ParamSetZ none sampleKey 8 [[1, 2, 3], [], sampleKey.take 17] =
    some (gost_mac (gost_key sampleCtx sampleKey) 64 ([1, 2, 3] ++ sampleKey.take 17)) := by
  decide +kernel

end Gost
