import Verif.Model.Imit
import Verif.Spec.Imit
import Verif.Lemmas.GostModes

/-! # The GOST 28147-89 MAC digest: proofs -/

namespace Gost
open Spec

theorem mac_block_eq (c : Ctx) (s b : Bytes) : mac_block c s b = M89 c.box (gost_get_key c) s b := by
  unfold M89; rw [mac_block_congr (ctxEq_keyCtx c)]

/-- The part of the context that `mac_block_mesh` reads and writes. -/
def icore (c : ImitCtx) : Ctx × Bytes × Nat × Bool × Bool × Nat :=
  (c.cctx, c.buffer, c.count, c.key_meshing, c.key_set, c.dgst_size)

theorem icore_step {c d : ImitCtx} (h : icore c = icore d) (b : Bytes) :
    icore (mac_block_mesh c b) = icore (mac_block_mesh d b) := by
  simp only [icore, Prod.mk.injEq] at h
  obtain ⟨h1, h2, h3, h4, h5, h6⟩ := h
  simp only [icore, mac_block_mesh, h3, h4]
  split <;> simp only [h1, h2, h3, h4, h5, h6]

theorem icore_fold {c d : ImitCtx} (h : icore c = icore d) (bs : List Bytes) :
    icore (bs.foldl mac_block_mesh c) = icore (bs.foldl mac_block_mesh d) := by
  induction bs generalizing c d with
  | nil => exact h
  | cons b bs ih => exact ih (icore_step h b)

theorem mesh_keeps (c : ImitCtx) (b : Bytes) :
    (mac_block_mesh c b).partial_block = c.partial_block ∧ (mac_block_mesh c b).bytes_left = c.bytes_left := by
  unfold mac_block_mesh
  split <;> exact ⟨rfl, rfl⟩

theorem fold_keeps (c : ImitCtx) (bs : List Bytes) :
    (bs.foldl mac_block_mesh c).partial_block = c.partial_block ∧
    (bs.foldl mac_block_mesh c).bytes_left = c.bytes_left := by
  induction bs generalizing c with
  | nil => exact ⟨rfl, rfl⟩
  | cons b bs ih => rw [List.foldl_cons, (ih _).1, (ih _).2, (mesh_keeps c b).1, (mesh_keeps c b).2]; exact ⟨rfl, rfl⟩

theorem mesh_count_pos (c : ImitCtx) (b : Bytes) : (mac_block_mesh c b).count ≠ 0 := by
  unfold mac_block_mesh
  split <;> simp

theorem fold_count (c : ImitCtx) (bs : List Bytes) (h : bs ≠ []) : (bs.foldl mac_block_mesh c).count ≠ 0 := by
  induction bs generalizing c with
  | nil => exact absurd rfl h
  | cons b bs ih =>
    by_cases h' : bs = []
    · subst h'; exact mesh_count_pos c b
    · exact ih _ h'

theorem imitLoop_eq (c : ImitCtx) (p : Bytes) :
    ∃ (bs : List Bytes) (rest : Bytes), p = bs.flatten ++ rest ∧ (∀ b ∈ bs, b.length = 8) ∧ rest.length ≤ 8 ∧
      imitLoop c p = (bs.foldl mac_block_mesh c, rest) := by
  generalize hn : p.length = n
  induction n using Nat.strongRecOn generalizing c p with
  | ind n ih =>
    subst hn
    by_cases h : 8 < p.length
    · obtain ⟨bs, rest, h1, h2, h3, h4⟩ := ih (p.drop 8).length (by simp; omega) (mac_block_mesh c (p.take 8)) _ rfl
      refine ⟨p.take 8 :: bs, rest, ?_, ?_, h3, ?_⟩
      · simp only [List.flatten_cons, List.append_assoc]
        rw [← h1, List.take_append_drop]
      · intro b hb
        rcases List.mem_cons.mp hb with rfl | hb
        · simp; omega
        · exact h2 b hb
      · rw [imitLoop, dif_pos h, h4]; rfl
    · refine ⟨[], p, by simp, by simp, by omega, ?_⟩
      rw [imitLoop, dif_neg h]; rfl

theorem imitFill_eq (i : Nat) (pb xs : Bytes) (hl : pb.length = 8) (hi : i ≤ 8) :
    imitFill i pb xs = (i + min (8 - i) xs.length,
      pb.take i ++ xs.take (8 - i) ++ pb.drop (i + min (8 - i) xs.length), xs.drop (8 - i)) := by
  induction xs generalizing i pb with
  | nil => simp [imitFill]
  | cons x xs ih =>
    rw [imitFill]
    by_cases h : i < 8
    · rw [if_pos h, ih (i + 1) _ (by simp [hl]) (by omega)]
      obtain ⟨m, hm⟩ : ∃ m, 8 - i = m + 1 := ⟨8 - i - 1, by omega⟩
      have hm' : 8 - (i + 1) = m := by omega
      have hst : (pb.set i x).take (i + 1) = pb.take i ++ [x] := by
        rw [List.set_eq_take_append_cons_drop, if_pos (by omega), List.take_append,
          List.take_of_length_le (by simp; omega)]
        simp [hl, show i + 1 - min i 8 = 1 by omega]
      have hst2 : ∀ k, i < k → (pb.set i x).drop k = pb.drop k := fun k hk => List.drop_set_of_lt hk
      rw [hst, hst2 _ (by omega), hm, hm']
      simp only [List.take_succ_cons, List.drop_succ_cons, List.length_cons]
      have : i + 1 + min m xs.length = i + min (m + 1) (xs.length + 1) := by omega
      rw [this]
      simp
    · have : 8 - i = 0 := by omega
      rw [if_neg h, this]; simp

/-- What a context reached from `c0` by absorbing `m` looks like. -/
def ImitInv (c0 : ImitCtx) (m : Bytes) (c : ImitCtx) : Prop :=
  ∃ (bs : List Bytes) (p : Bytes), m = bs.flatten ++ p ∧ (∀ b ∈ bs, b.length = 8) ∧ p.length = c.bytes_left ∧ p.length ≤ 8 ∧
    c.partial_block.length = 8 ∧ c.partial_block.take p.length = p ∧ icore c = icore (bs.foldl mac_block_mesh c0)

theorem imitRest_inv (c0 c : ImitCtx) (bs : List Bytes) (hbs : ∀ b ∈ bs, b.length = 8)
    (hc : icore c = icore (bs.foldl mac_block_mesh c0)) (hp : c.partial_block.length = 8) (data : Bytes) :
    ImitInv c0 (bs.flatten ++ data) (imitRest c data) := by
  obtain ⟨bs', rest, h1, h2, h3, h4⟩ := imitLoop_eq c data
  unfold imitRest
  rw [h4]
  have hk := fold_keeps c bs'
  refine ⟨bs ++ bs', rest, ?_, ?_, rfl, h3, ?_, ?_, ?_⟩
  · rw [h1]; simp
  · intro b hb
    rcases List.mem_append.mp hb with hb | hb
    · exact hbs b hb
    · exact h2 b hb
  · simp [hk.1, hp]; omega
  · simp
  · rw [List.foldl_append]
    show icore (bs'.foldl mac_block_mesh c) = _
    exact icore_fold hc bs'

theorem icore_key_set {c d : ImitCtx} (h : icore c = icore d) : c.key_set = d.key_set := by
  simp only [icore, Prod.mk.injEq] at h
  exact h.2.2.2.2.1

theorem fold_key_set (c : ImitCtx) (bs : List Bytes) :
    (bs.foldl mac_block_mesh c).key_set = c.key_set ∧ (bs.foldl mac_block_mesh c).dgst_size = c.dgst_size := by
  induction bs generalizing c with
  | nil => exact ⟨rfl, rfl⟩
  | cons b bs ih =>
    have : (mac_block_mesh c b).key_set = c.key_set ∧ (mac_block_mesh c b).dgst_size = c.dgst_size := by
      unfold mac_block_mesh; split <;> exact ⟨rfl, rfl⟩
    rw [List.foldl_cons, (ih _).1, (ih _).2, this.1, this.2]; exact ⟨rfl, rfl⟩

theorem imit_update_inv (c0 c : ImitCtx) (m data : Bytes) (hks : c0.key_set = true) (h : ImitInv c0 m c) :
    ImitInv c0 (m ++ data) (gost_imit_update c data).1 ∧ (gost_imit_update c data).2 = 1 := by
  obtain ⟨bs, p, h1, h2, h3, h4, h5, h6, h7⟩ := h
  have hk : c.key_set = true := by rw [icore_key_set h7, (fold_key_set _ _).1, hks]
  unfold gost_imit_update
  rw [if_neg (by simp [hk])]
  by_cases hb : c.bytes_left = 0
  · rw [if_neg (by simp [hb])]
    have hp : p = [] := List.length_eq_zero_iff.mp (by omega)
    subst hp
    refine ⟨?_, rfl⟩
    rw [h1, List.append_nil]
    exact imitRest_inv c0 c bs h2 h7 h5 data
  · have hfill : imitFill c.bytes_left c.partial_block data = (p.length + min (8 - p.length) data.length,
        p ++ data.take (8 - p.length) ++ c.partial_block.drop (p.length + min (8 - p.length) data.length),
        data.drop (8 - p.length)) := by
      rw [imitFill_eq _ _ _ h5 (by omega), ← h3, h6]
    rw [if_pos hb, hfill]
    simp only
    by_cases hl : 8 - p.length ≤ data.length
    · have hmin : min (8 - p.length) data.length = 8 - p.length := by omega
      have h8 : p.length + (8 - p.length) = 8 := by omega
      rw [hmin, h8, if_pos rfl]
      have hd : c.partial_block.drop 8 = [] := List.drop_eq_nil_of_le (by omega)
      rw [hd, List.append_nil]
      refine ⟨?_, rfl⟩
      have hlen : (p ++ data.take (8 - p.length)).length = 8 := by simp; omega
      have := imitRest_inv c0
        (mac_block_mesh { c with partial_block := p ++ data.take (8 - p.length) } (p ++ data.take (8 - p.length)))
        (bs ++ [p ++ data.take (8 - p.length)])
        (by
          intro b hb
          rcases List.mem_append.mp hb with hb | hb
          · exact h2 b hb
          · rw [List.mem_singleton.mp hb]; exact hlen)
        (by
          rw [List.foldl_append, List.foldl_cons, List.foldl_nil]
          apply icore_step
          exact h7)
        (by rw [(mesh_keeps _ _).1]; exact hlen)
        (data.drop (8 - p.length))
      have e : m ++ data = (bs ++ [p ++ data.take (8 - p.length)]).flatten ++ data.drop (8 - p.length) := by
        rw [h1]; simp
      rw [e]
      exact this
    · have hmin : min (8 - p.length) data.length = data.length := by omega
      have ht : data.take (8 - p.length) = data := List.take_of_length_le (by omega)
      rw [hmin, ht, if_neg (by omega)]
      refine ⟨⟨bs, p ++ data, by rw [h1, List.append_assoc], h2, by simp, by simp; omega, ?_, ?_, h7⟩, rfl⟩
      · simp; omega
      · rw [List.length_append, ← List.length_append, List.take_left]

/-- The blocks the final call has processed in total. -/
def finalBlocks (bs : List Bytes) (p : Bytes) : List Bytes :=
  if p = [] then bs
  else if bs = [] then [p ++ zeros (8 - p.length), zeros 8]
  else bs ++ [p ++ zeros (8 - p.length)]

theorem imit_final_eq (c0 c : ImitCtx) (hks : c0.key_set = true) (hcount : c0.count = 0)
    (bs : List Bytes) (p : Bytes) (h3 : p.length = c.bytes_left) (h4 : p.length ≤ 8)
    (h5 : c.partial_block.length = 8) (h6 : c.partial_block.take p.length = p)
    (h7 : icore c = icore (bs.foldl mac_block_mesh c0)) :
    gost_imit_final c = some (get_mac ((finalBlocks bs p).foldl mac_block_mesh c0).buffer (8 * c0.dgst_size)) := by
  have hk : c.key_set = true := by rw [icore_key_set h7, (fold_key_set _ _).1, hks]
  have hbuf : ∀ {c d : ImitCtx}, icore c = icore d → c.buffer = d.buffer := by
    intro c d h; simp only [icore, Prod.mk.injEq] at h; exact h.2.1
  have hcnt : ∀ {c d : ImitCtx}, icore c = icore d → c.count = d.count := by
    intro c d h; simp only [icore, Prod.mk.injEq] at h; exact h.2.2.1
  have hdg : ∀ {c d : ImitCtx}, icore c = icore d → c.dgst_size = d.dgst_size := by
    intro c d h; simp only [icore, Prod.mk.injEq] at h; exact h.2.2.2.2.2
  unfold gost_imit_final
  rw [if_neg (by simp [hk])]
  by_cases hp : p = []
  · have hb : c.bytes_left = 0 := by rw [← h3, hp]; rfl
    simp only [hb, ne_eq, not_true, and_false, if_false, finalBlocks, hp, if_true]
    rw [hbuf h7, hdg h7, (fold_key_set _ _).2]
  · have hb : c.bytes_left ≠ 0 := by
      rw [← h3]; intro h; exact hp (List.length_eq_zero_iff.mp h)
    have hpos : 0 < p.length := List.length_pos_iff.mpr hp
    by_cases hbs : bs = []
    · have hc0 : c.count = 0 := by rw [hcnt h7, hbs]; exact hcount
      -- the update processes the padded block and leaves `p.length` zero bytes
      have hstate : (gost_imit_update c (zeros 8)).1 =
          { mac_block_mesh { c with partial_block := p ++ zeros (8 - p.length) } (p ++ zeros (8 - p.length)) with
            partial_block := zeros p.length ++ (p ++ zeros (8 - p.length)).drop p.length, bytes_left := p.length } := by
        unfold gost_imit_update
        have hfill : imitFill c.bytes_left c.partial_block (zeros 8) = (p.length + min (8 - p.length) (zeros 8).length,
            p ++ (zeros 8).take (8 - p.length) ++ c.partial_block.drop (p.length + min (8 - p.length) (zeros 8).length),
            (zeros 8).drop (8 - p.length)) := by
          rw [imitFill_eq _ _ _ h5 (by omega), ← h3, h6]
        rw [if_neg (by simp [hk]), if_pos hb, hfill]
        have hmin : min (8 - p.length) (zeros 8).length = 8 - p.length := by simp [zeros]
        have h8 : p.length + (8 - p.length) = 8 := by omega
        have ht : (zeros 8).take (8 - p.length) = zeros (8 - p.length) := by
          simp only [zeros, List.take_replicate]; congr 1
          first | done | omega
        have hdr : (zeros 8).drop (8 - p.length) = zeros p.length := by
          simp only [zeros, List.drop_replicate]; congr 1; omega
        rw [hmin, h8, ht, hdr]
        have hd : c.partial_block.drop 8 = [] := List.drop_eq_nil_of_le (by omega)
        rw [hd, List.append_nil]
        simp only [if_true]
        unfold imitRest
        rw [imitLoop, dif_neg (by simp [zeros]; omega)]
        simp only [(mesh_keeps _ _).1]
        have hz : (zeros p.length).length = p.length := by simp [zeros]
        rw [hz]
      have f1 : (gost_imit_update c (zeros 8)).1.bytes_left = p.length := by rw [hstate]
      have f2 : (gost_imit_update c (zeros 8)).1.partial_block.take p.length = zeros p.length := by
        rw [hstate]
        simp only
        rw [List.take_append_of_le_length (by simp [zeros]), List.take_of_length_le (by simp [zeros])]
      have f3 : icore (gost_imit_update c (zeros 8)).1 = icore ([p ++ zeros (8 - p.length)].foldl mac_block_mesh c0) := by
        rw [hstate]
        show icore (mac_block_mesh { c with partial_block := p ++ zeros (8 - p.length) } (p ++ zeros (8 - p.length))) = _
        apply icore_step
        rw [hbs] at h7
        exact h7
      simp only [hc0, hb, ne_eq, not_false_eq_true, and_self, if_true]
      clear hstate
      generalize (gost_imit_update c (zeros 8)).1 = d at f1 f2 f3 ⊢
      rw [f1, f2, if_pos (by omega)]
      have hz8 : zeros p.length ++ zeros (8 - p.length) = zeros 8 := by
        simp only [zeros, List.replicate_append_replicate]; congr 1; omega
      rw [hz8]
      have hcore : icore (mac_block_mesh { d with partial_block := zeros 8 } (zeros 8)) =
          icore ([p ++ zeros (8 - p.length), zeros 8].foldl mac_block_mesh c0) := by
        simp only [List.foldl_cons, List.foldl_nil]
        apply icore_step
        exact f3
      have hd0 := hdg hcore
      rw [(fold_key_set c0 _).2] at hd0
      have hf : finalBlocks bs p = [p ++ zeros (8 - p.length), zeros 8] := by simp [finalBlocks, hp, hbs]
      rw [hf, ← hbuf hcore, ← hd0, ← f1]
    · have hc0 : c.count ≠ 0 := by rw [hcnt h7]; exact fold_count c0 bs hbs
      simp only [hc0, false_and, if_false, ne_eq, hb, not_false_eq_true, if_true]
      rw [← h3, h6]
      have hcore : icore (mac_block_mesh { c with partial_block := p ++ zeros (8 - p.length) } (p ++ zeros (8 - p.length))) =
          icore ((bs ++ [p ++ zeros (8 - p.length)]).foldl mac_block_mesh c0) := by
        rw [List.foldl_append, List.foldl_cons, List.foldl_nil]
        apply icore_step
        exact h7
      have hd0 := hdg hcore
      rw [(fold_key_set c0 _).2] at hd0
      have hf : finalBlocks bs p = bs ++ [p ++ zeros (8 - p.length)] := by simp [finalBlocks, hp, hbs]
      rw [hf, ← hbuf hcore, ← hd0, h3]

theorem flatten_len8 (bs : List Bytes) (h : ∀ b ∈ bs, b.length = 8) : bs.flatten.length = 8 * bs.length := by
  induction bs with
  | nil => rfl
  | cons b bs ih =>
    simp only [List.flatten_cons, List.length_append, List.length_cons]
    rw [ih (fun x hx => h x (by simp [hx])), h b (by simp)]; omega

/-- Except when a one-block message has been flushed early, the processed blocks are those of the specification. -/
theorem finalBlocks_eq (bs : List Bytes) (p : Bytes) (h2 : ∀ b ∈ bs, b.length = 8) (h4 : p.length ≤ 8)
    (hne : (bs.flatten ++ p).length ≠ 8 ∨ p ≠ []) : finalBlocks bs p = macBlocks (bs.flatten ++ p) := by
  have hl := flatten_len8 bs h2
  unfold finalBlocks macBlocks
  simp only [List.length_append, hl] at hne ⊢
  by_cases hp : p = []
  · subst hp
    simp only [List.length_nil, Nat.add_zero, List.append_nil, if_true] at hne ⊢
    have h0 : (8 - 8 * bs.length % 8) % 8 = 0 := by omega
    rw [h0, List.replicate_zero, List.append_nil, blocks_of_flatten 8 (by decide) _ h2, if_neg, List.append_nil]
    simp only [ne_eq, not_true, or_false] at hne
    omega
  · have hpos : 0 < p.length := List.length_pos_iff.mpr hp
    rw [if_neg hp]
    have hz : (8 - (8 * bs.length + p.length) % 8) % 8 = 8 - p.length := by omega
    rw [hz]
    have hlen : (p ++ zeros (8 - p.length)).length = 8 := by simp [zeros]; omega
    have hb : blocks 8 (bs.flatten ++ p ++ List.replicate (8 - p.length) 0) = bs ++ [p ++ zeros (8 - p.length)] := by
      have e : bs.flatten ++ p ++ List.replicate (8 - p.length) 0 = (bs ++ [p ++ zeros (8 - p.length)]).flatten := by
        simp [zeros]
      rw [e, blocks_of_flatten 8 (by decide)]
      intro b hb
      rcases List.mem_append.mp hb with hb | hb
      · exact h2 b hb
      · rw [List.mem_singleton.mp hb]; exact hlen
    rw [hb]
    by_cases hbs : bs = []
    · subst hbs
      rw [if_pos rfl, if_pos (by simp; omega)]
      rfl
    · have : 0 < bs.length := List.length_pos_iff.mpr hbs
      rw [if_neg hbs, if_neg (by omega), List.append_nil]

theorem noiv_eq (c : Ctx) : (cryptopro_key_meshing_noiv c).box = c.box ∧
    gost_get_key (cryptopro_key_meshing_noiv c) = mesh89 c.box (gost_get_key c) := by
  refine ⟨rfl, ?_⟩
  simp only [cryptopro_key_meshing_noiv]
  rw [gost_get_key_set _ _ (by rw [gost_dec_length]), mesh_newkey]

/-- The fold of `mac_block_mesh` is the specification's meshed MAC fold. -/
theorem meshFold_eq (box : KBox) (bs : List Bytes) (j : Nat) (c : ImitCtx) (hbox : c.cctx.box = box)
    (hm : c.key_meshing = true) (hc : c.count = if j = 0 then 0 else (j - 1) % 128 * 8 + 8) :
    (bs.foldl mac_block_mesh c).buffer =
      macMeshFold (M89 box) (mesh89 box) (gost_get_key c.cctx) j c.buffer bs := by
  induction bs generalizing j c with
  | nil => rfl
  | cons b bs ih =>
    have hiff : c.count = 1024 ↔ (j ≠ 0 ∧ (8 * j) % 1024 = 0) := by
      rw [hc]; split <;> omega
    rw [List.foldl_cons, macMeshFold]
    have hstep : (mac_block_mesh c b).cctx.box = box ∧ (mac_block_mesh c b).key_meshing = true ∧
        (mac_block_mesh c b).count = (j + 1 - 1) % 128 * 8 + 8 ∧
        gost_get_key (mac_block_mesh c b).cctx =
          (if j ≠ 0 ∧ (8 * j) % 1024 = 0 then mesh89 box (gost_get_key c.cctx) else gost_get_key c.cctx) ∧
        (mac_block_mesh c b).buffer =
          M89 box (if j ≠ 0 ∧ (8 * j) % 1024 = 0 then mesh89 box (gost_get_key c.cctx) else gost_get_key c.cctx) c.buffer b := by
      have hcnt : c.count % 1024 + 8 = (j + 1 - 1) % 128 * 8 + 8 := by
        rw [hc]; split <;> omega
      unfold mac_block_mesh
      by_cases h : c.count = 1024
      · obtain ⟨n1, n2⟩ := noiv_eq c.cctx
        rw [hbox] at n1 n2
        simp only [hm, h, and_self, if_true, if_pos (hiff.mp h), mac_block_eq, n1, n2]
        rw [h] at hcnt
        exact ⟨trivial, trivial, hcnt, trivial⟩
      · have hn : ¬ (j ≠ 0 ∧ (8 * j) % 1024 = 0) := fun hh => h (hiff.mpr hh)
        simp only [hm, h, and_false, if_false, if_neg hn, mac_block_eq, hbox]
        exact ⟨trivial, trivial, hcnt, trivial, trivial⟩
    obtain ⟨s1, s2, s3, s4, s5⟩ := hstep
    rw [ih (j + 1) _ s1 s2 (by rw [s3, if_neg (by omega)]), s4, s5]

/-- Below 129 blocks the meshed fold is the plain one. -/
theorem macMeshFold_short (M : Bytes → Bytes → Bytes → Bytes) (mesh : Bytes → Bytes) (k : Bytes) (j : Nat) (s : Bytes)
    (bs : List Bytes) (h : j + bs.length ≤ 128) : macMeshFold M mesh k j s bs = macFold (M k) s bs := by
  induction bs generalizing j s with
  | nil => rfl
  | cons b bs ih =>
    simp only [List.length_cons] at h
    rw [macMeshFold, if_neg (by omega), ih (j + 1) _ (by omega)]
    rfl

/-- The loop of the one-shot MAC. -/
theorem gostMacLoop_eq (c : Ctx) (s : Bytes) (bs : List Bytes) (rest : Bytes) (hbs : ∀ b ∈ bs, b.length = 8)
    (hr : rest.length < 8) :
    gostMacLoop c s (bs.flatten ++ rest) = (macFold (M89 c.box (gost_get_key c)) s bs, rest) := by
  induction bs generalizing s with
  | nil => rw [gostMacLoop, dif_neg (by simpa using hr)]; rfl
  | cons b bs ih =>
    have hb : b.length = 8 := hbs b (by simp)
    have e1 : ((b :: bs).flatten ++ rest).take 8 = b := by
      simp only [List.flatten_cons, List.append_assoc]
      rw [List.take_append_of_le_length (by omega), List.take_of_length_le (by omega)]
    have e2 : ((b :: bs).flatten ++ rest).drop 8 = bs.flatten ++ rest := by
      simp only [List.flatten_cons, List.append_assoc]
      rw [← hb, List.drop_left]
    rw [gostMacLoop, dif_pos (by simp; omega), e1, e2, ih _ (fun x hx => hbs x (by simp [hx])), mac_block_eq]
    rfl

theorem split8 (m : Bytes) : ∃ (bs : List Bytes) (rest : Bytes), m = bs.flatten ++ rest ∧ (∀ b ∈ bs, b.length = 8) ∧ rest.length < 8 := by
  generalize hn : m.length = n
  induction n using Nat.strongRecOn generalizing m with
  | ind n ih =>
    subst hn
    by_cases h : 8 ≤ m.length
    · obtain ⟨bs, rest, h1, h2, h3⟩ := ih (m.drop 8).length (by simp; omega) _ rfl
      refine ⟨m.take 8 :: bs, rest, ?_, ?_, h3⟩
      · simp only [List.flatten_cons, List.append_assoc]; rw [← h1, List.take_append_drop]
      · intro b hb
        rcases List.mem_cons.mp hb with rfl | hb
        · simp; omega
        · exact h2 b hb
    · exact ⟨[], m, by simp, by simp, by omega⟩

/-- The one-shot MAC from a start state: the specification's blocks folded. -/
theorem gost_mac_eq (c : Ctx) (nbits : Nat) (m : Bytes) :
    gost_mac c nbits m = get_mac (macFold (M89 c.box (gost_get_key c)) (zeros 8) (macBlocks m)) nbits := by
  obtain ⟨bs, rest, h1, h2, h3⟩ := split8 m
  have hl := flatten_len8 bs h2
  unfold gost_mac
  rw [h1, gostMacLoop_eq c (zeros 8) bs rest h2 h3]
  simp only [List.length_append, hl]
  by_cases hr : rest = []
  · subst hr
    simp only [List.length_nil, Nat.add_zero, Nat.sub_zero, Nat.lt_irrefl, if_false, List.append_nil]
    congr 1
    unfold macBlocks
    simp only [hl]
    have h0 : (8 - 8 * bs.length % 8) % 8 = 0 := by omega
    rw [h0, List.replicate_zero, List.append_nil, blocks_of_flatten 8 (by decide) _ h2]
    by_cases h8 : 8 * bs.length = 8
    · rw [if_pos h8, if_pos (by omega), mac_block_eq, macFold, macFold, List.foldl_append]; rfl
    · rw [if_neg h8, if_neg (by omega), List.append_nil]
  · have hpos : 0 < rest.length := List.length_pos_iff.mpr hr
    have hlt : 8 * bs.length + rest.length - rest.length < 8 * bs.length + rest.length := by omega
    rw [if_pos hlt, ← finalBlocks_eq bs rest h2 (by omega) (Or.inr hr)]
    simp only [finalBlocks, hr, if_false]
    congr 1
    by_cases hb : bs = []
    · subst hb
      simp only [List.length_nil, Nat.mul_zero, Nat.zero_add, Nat.sub_self, if_true]
      simp only [mac_block_eq, macFold, List.foldl_cons, List.foldl_nil]
    · have : 0 < bs.length := List.length_pos_iff.mpr hb
      rw [if_neg (by omega), if_neg hb, mac_block_eq, macFold, macFold, List.foldl_append]; rfl

end Gost
