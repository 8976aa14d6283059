import Verif.Spec.Gostsum
import Verif.Props.Gost94
import Verif.Props.Streebog

/-!
# C53: the checksum tools
-/

namespace Gost
open Spec

theorem hexDigit_eq : ∀ n < 16, hexDigit n = hexChars.getD n 0 := by decide +kernel

theorem hexChars_inj : ∀ m < 16, ∀ n < 16, hexChars.getD m 0 = hexChars.getD n 0 → m = n := by decide +kernel

theorem hexChars_hex : ∀ n < 16, notHex (hexChars.getD n 0) = false := by decide +kernel

theorem hexOf_eq (b : Bytes) : hexOf b = hexText b := by
  unfold hexOf hexText
  congr 1
  funext x
  rw [hexDigit_eq _ (by have := x.isLt; omega), hexDigit_eq _ (by omega)]

theorem hexText_cons (x : Byte) (b : Bytes) :
    hexText (x :: b) = hexChars.getD (x.toNat / 16) 0 :: hexChars.getD (x.toNat % 16) 0 :: hexText b := by
  simp [hexText]

theorem hexText_length (b : Bytes) : (hexText b).length = 2 * b.length := by
  induction b with
  | nil => rfl
  | cons x b ih => rw [hexText_cons]; simp only [List.length_cons, ih]; omega

theorem hexText_inj : ∀ a b : Bytes, hexText a = hexText b → a = b
  | [], [], _ => rfl
  | [], y :: b, h => by rw [hexText_cons] at h; simp [hexText] at h
  | x :: a, [], h => by rw [hexText_cons] at h; simp [hexText] at h
  | x :: a, y :: b, h => by
    rw [hexText_cons, hexText_cons, List.cons.injEq, List.cons.injEq] at h
    have hx := x.isLt
    have hy := y.isLt
    have h1 := hexChars_inj _ (by omega) _ (by omega) h.1
    have h2 := hexChars_inj _ (by omega) _ (by omega) h.2.1
    rw [hexText_inj a b h.2.2, show x = y from BitVec.eq_of_toNat_eq (by omega)]

theorem hexText_hex (b : Bytes) : (hexText b).any notHex = false := by
  induction b with
  | nil => rfl
  | cons x b ih =>
    rw [hexText_cons, List.any_cons, List.any_cons, ih, hexChars_hex _ (by have := x.isLt; omega), hexChars_hex _ (by omega)]
    rfl

theorem notHex_space : notHex 0x20 = true := by decide

theorem hexText_no_space (b : Bytes) : ∀ c ∈ hexText b, c ≠ 0x20 := by
  intro c hc he
  have h := hexText_hex b
  rw [List.any_eq_false] at h
  exact h c hc (he ▸ notHex_space)

theorem hexText_no_zero (b : Bytes) : ∀ c ∈ hexText b, c ≠ 0 := by
  intro c hc he
  have h := hexText_hex b
  rw [List.any_eq_false] at h
  exact h c hc (he ▸ (by decide))

theorem hexText_no_nl (b : Bytes) : (0x0a : Byte) ∉ hexText b := by
  intro hc
  have h := hexText_hex b
  rw [List.any_eq_false] at h
  exact h _ hc (by decide)

theorem fgetsGo_line (rest : Bytes) : ∀ (n : Nat) (l : Bytes), (0x0a : Byte) ∉ l → l.length < n →
    fgetsGo n (l ++ 0x0a :: rest) = (l ++ [0x0a], rest)
  | n + 1, [], _, _ => by simp [fgetsGo]
  | n + 1, c :: l, h, hl => by
    rw [List.cons_append, fgetsGo, if_neg (fun hc => h (by simp [hc]))]
    rw [fgetsGo_line rest n l (fun hc => h (List.mem_cons_of_mem _ hc)) (by simp at hl; omega)]
    rfl

theorem fgets_line (l rest : Bytes) (h : (0x0a : Byte) ∉ l) (hl : l.length ≤ 4094) :
    fgets (l ++ 0x0a :: rest) = some (l ++ [0x0a], rest) := by
  rw [fgets, if_neg (by simp), fgetsGo_line rest 4095 l h (by omega)]

theorem takeWhile_all {α : Type} (p : α → Bool) : ∀ l : List α, (∀ x ∈ l, p x = true) → l.takeWhile p = l
  | [], _ => rfl
  | x :: l, h => by
    rw [List.takeWhile_cons, if_pos (h x (by simp)), takeWhile_all p l (fun y hy => h y (by simp [hy]))]

theorem cstr_id (l : Bytes) (h : (0x00 : Byte) ∉ l) : cstr l = l :=
  takeWhile_all _ l (fun x hx => by simp only [decide_eq_true_eq, ne_eq]; rintro rfl; exact h hx)

theorem stripNl_line (l : Bytes) (h0 : l ≠ []) (hn : (0x0a : Byte) ∉ l) (hr : l.getLast? ≠ some 0x0d) :
    stripNl (l ++ [0x0a]) = some l := by
  unfold stripNl
  obtain ⟨i, x, rfl⟩ : ∃ i x, l = i ++ [x] := ⟨l.dropLast, l.getLast h0, (List.dropLast_append_getLast h0).symm⟩
  have hx : isNl x = false := by
    have h1 : x ≠ 0x0a := fun hc => hn (by simp [hc])
    have h2 : x ≠ 0x0d := fun hc => hr (by simp [hc])
    unfold isNl
    rw [decide_eq_false h1, decide_eq_false h2]
    rfl
  simp only [List.reverse_append, List.reverse_cons, List.reverse_nil, List.nil_append, List.singleton_append]
  have h1 : isNl 0x0a = true := by decide
  rw [List.dropWhile_cons, h1]
  simp only [if_true]
  rw [List.dropWhile_cons, hx]
  simp only [Bool.false_eq_true, if_false]
  rw [if_neg (by simp)]
  simp

theorem sumLine_eq (s name rest : Bytes) : sumLine s name ++ rest = s ++ 0x20 :: (name ++ 0x0a :: rest) := by
  simp [sumLine]

/-- A line of `gostsum` is read back. -/
theorem get_line94_sumLine (s name rest : Bytes) (hs : s.length = 64) (hh : s.any notHex = false) (hn : FileName 4094 name) :
    get_line94 (sumLine s name ++ rest) = .line s name rest := by
  obtain ⟨h0, hz, hnl, hcr, hl⟩ := hn
  rw [sumLine_eq]
  unfold get_line94
  rw [if_neg (by simp; omega)]
  simp only
  rw [List.take_left' hs, hh, if_neg (by simp), List.drop_left' hs]
  simp only
  rw [if_neg (by simp), fgets_line name rest hnl hl]
  simp only
  rw [cstr_id _ (by simp; exact hz), stripNl_line name h0 hnl hcr]

/-- A line of `gost12sum` is read back. -/
theorem get_line12_sumLine (s name rest : Bytes) (hs : s.length = 64 ∨ s.length = 128) (hh : s.any notHex = false)
    (hn : FileName (4093 - s.length) name) : get_line12 (sumLine s name ++ rest) = .line s name rest := by
  obtain ⟨h0, hz, hnl, hcr, hl⟩ := hn
  have hs0 : s ≠ [] := by rintro rfl; simp at hs
  have hh' : ∀ c ∈ s, ¬ notHex c = true := by rwa [List.any_eq_false] at hh
  have hsp : (0x20 : Byte) ∉ s := fun hc => hh' _ hc (by decide)
  have hnl' : (0x0a : Byte) ∉ s ++ 0x20 :: name := by
    intro hc
    rw [List.mem_append, List.mem_cons] at hc
    rcases hc with hc | hc | hc
    · exact hh' _ hc (by decide)
    · exact absurd hc (by decide)
    · exact hnl hc
  have hz' : (0x00 : Byte) ∉ s ++ 0x20 :: name := by
    intro hc
    rw [List.mem_append, List.mem_cons] at hc
    rcases hc with hc | hc | hc
    · exact hh' _ hc (by decide)
    · exact absurd hc (by decide)
    · exact hz hc
  have hlast : (s ++ 0x20 :: name).getLast? ≠ some 0x0d := by
    cases name with
    | nil => exact absurd rfl h0
    | cons y ys => rw [show s ++ 0x20 :: y :: ys = (s ++ [0x20]) ++ (y :: ys) from by simp, List.getLast?_append_of_ne_nil _ (by simp)]; exact hcr
  have hf : fgets (sumLine s name ++ rest) = some ((s ++ 0x20 :: name) ++ [0x0a], rest) := by
    rw [sumLine_eq, show s ++ 0x20 :: (name ++ 0x0a :: rest) = (s ++ 0x20 :: name) ++ 0x0a :: rest from by simp]
    exact fgets_line _ rest hnl' (by simp; omega)
  have hline : line12 ((s ++ 0x20 :: name) ++ [0x0a]) rest = some (.line s name rest) := by
    unfold line12
    simp only
    rw [cstr_id _ (by intro hc; rw [List.mem_append] at hc; rcases hc with hc | hc; exact hz' hc; simp at hc)]
    have hd : ((s ++ 0x20 :: name) ++ [0x0a]).dropWhile (· = 0x20) = (s ++ 0x20 :: name) ++ [0x0a] := by
      cases s with
      | nil => exact absurd rfl hs0
      | cons y ys => rw [List.cons_append, List.cons_append, List.dropWhile_cons, if_neg (by simp; rintro rfl; exact hsp (by simp))]
    rw [hd, stripNl_line _ (by simp) hnl' hlast]
    simp only
    rw [if_neg (by simp; omega)]
    have ht : (s ++ 0x20 :: name).takeWhile (· ≠ 0x20) = s := by
      rw [List.takeWhile_append_of_pos (by intro c hc; simp; rintro rfl; exact hsp hc)]
      simp
    rw [ht, List.drop_left]
    simp only
    rw [if_neg h0, hh, if_neg (by simp), if_neg (by omega)]
  rw [get_line12]
  split
  · rename_i h; rw [hf] at h; cases h
  · rename_i filename r h
    rw [hf] at h
    cases h
    rw [hline]

theorem foldl_absorb {S : Type} (upd : S → Bytes → S) : ∀ (l : List Bytes) (s : S), l.foldl upd s = absorb upd s l
  | [], _ => rfl
  | x :: l, s => by rw [List.foldl_cons, foldl_absorb upd l]; rfl

theorem range_reverse (b : Bytes) (h : b.length = 32) : (List.range 32).map (fun i => at_ b (31 - i)) = b.reverse := by
  apply List.ext_getElem
  · simp [h]
  · intro i h1 h2
    simp only [List.getElem_map, List.getElem_range, List.getElem_reverse, at_]
    simp only [List.length_map, List.length_range] at h1
    rw [getD_lt _ (31 - i) 0 (by omega)]
    congr 1
    omega

/-- The digest `gostsum` prints for a message: the GOST R 34.11-94 hash, from its last byte. -/
def gostsumDigest (b : SubstBlock) (m : Bytes) : Bytes := (G94.hash (E89 (kboxinit b)) m).reverse

/-- Reading any file with `gostsum`, after any files were read. -/
theorem hash_file94_eq (b : SubstBlock) (fs : Files) (c : HashCtx) (name : Bytes) (hc : ∃ m, GInv (kboxinit b) m c)
    (hs : ∀ m, contents fs name = some m → m.length < 2 ^ 60) :
    (hash_file94 fs c name).2 = (contents fs name).map (fun m => hexText (gostsumDigest b m)) ∧
      ∃ m, GInv (kboxinit b) m (hash_file94 fs c name).1 := by
  unfold hash_file94 contents at *
  obtain ⟨m, hm⟩ := hc
  cases hf : fs name with
  | none => simp only [Option.map_none]; exact ⟨trivial, m, hm⟩
  | some r =>
    rw [hf] at hs
    simp only at hs ⊢
    unfold hash_stream94
    simp only
    rw [foldl_absorb]
    have h := absorb_ginv _ r.chunks [] _ (start_inv _ m _ hm)
    cases he : r.err with
    | true => simp only [if_true, Option.map_none]; exact ⟨trivial, _, h⟩
    | false =>
      simp only [if_false, Option.map_some, Bool.false_eq_true]
      rw [he] at hs
      have hlen := hs r.chunks.flatten (by simp)
      refine ⟨?_, _, finish_hash_inv _ _ _ h⟩
      rw [hexOf_eq, range_reverse _ (finish_hash_length _ _ _ h), (finish_hash_eq _ _ _ h (by simpa using hlen)).1]
      rfl

theorem gostsumDigest_length (b : SubstBlock) (m : Bytes) (h : m.length < 2 ^ 60) : (gostsumDigest b m).length = 32 := by
  have hi := absorb_ginv _ [m] [] _ (init_ctx_inv sampleCtx (some b))
  have h1 := finish_hash_length _ _ _ hi
  have h2 := (finish_hash_eq _ _ _ hi (by simpa using h)).1
  rw [h2] at h1
  simpa [gostsumDigest] using h1

/-- **C53**, hashing: for every file, whatever blocks the reads deliver and whatever was hashed before with the same context,
`gostsum` prints the hexadecimal text of the standard's hash of the contents, last byte first; it fails for a file that
cannot be opened or read. -/
theorem C53_gostsum_hash_any_split (c : Ctx) (b : SubstBlock) (fs fs0 : Files) (before : List Bytes) (name : Bytes)
    (h0 : ∀ name m, contents fs0 name = some m → m.length < 2 ^ 60) (hs : ∀ m, contents fs name = some m → m.length < 2 ^ 60) :
    (hash_file94 fs (gen94 fs0 (init_gost_hash_ctx c (some b)) before).1 name).2 =
      (contents fs name).map fun m => hexText (G94.hash (E89 (kboxinit b)) m).reverse := by
  have key : ∀ (l : List Bytes) (c : HashCtx), (∃ m, GInv (kboxinit b) m c) → ∃ m, GInv (kboxinit b) m (gen94 fs0 c l).1 := by
    intro l
    induction l with
    | nil => exact fun c h => h
    | cons x xs ih =>
      intro c h
      have h1 := ih _ (hash_file94_eq b fs0 c x h (h0 x)).2
      rw [gen94]
      split <;> exact h1
  exact (hash_file94_eq b fs _ name (key before _ ⟨[], init_ctx_inv c (some b)⟩) hs).1

/-- **C53**, hashing with `gost12sum` (256 and 512 bits), for every build variant. -/
theorem C53_gost12sum_hash_any_split (bld : SbBuild) (fs : Files) (name : Bytes) :
    hash_file12 bld fs name 32 = (contents fs name).map (fun m => hexText (Streebog.hash256 m)) ∧
    hash_file12 bld fs name 64 = (contents fs name).map (fun m => hexText (Streebog.hash512 m)) := by
  unfold hash_file12 contents
  cases hf : fs name with
  | none => exact ⟨rfl, rfl⟩
  | some r =>
    simp only
    unfold hash_stream12
    simp only [foldl_absorb]
    cases he : r.err with
    | true => simp
    | false =>
      simp only [if_false, Option.map_some, Bool.false_eq_true, hexOf_eq]
      have h5 := C30_streebog512_is_standard bld r.chunks
      have h2 := C30_streebog256_is_standard bld r.chunks
      obtain ⟨l5, l2⟩ := C30_digest_length bld r.chunks
      unfold sbDigest at h5 h2 l5 l2
      constructor
      · rw [List.take_of_length_le (by simp only [Nat.reduceMul]; omega), show 32 * 8 = 256 from rfl, h2]
      · rw [List.take_of_length_le (by simp only [Nat.reduceMul]; omega), show 64 * 8 = 512 from rfl, h5]

/-- **C53**, generating: the output is a line for each file that can be read, in order, and the exit status is 0 exactly if
all could be read. -/
theorem C53_gostsum_output (c : Ctx) (b : SubstBlock) (fs : Files) (names : List Bytes)
    (hs : ∀ name m, contents fs name = some m → m.length < 2 ^ 60) :
    (gostsum_gen c b fs names).1 = sumFile (gostsumDigest b) fs names ∧
      ((gostsum_gen c b fs names).2 = 0 ↔ ∀ name ∈ names, (contents fs name).isSome) := by
  have key : ∀ (l : List Bytes) (c : HashCtx), (∃ m, GInv (kboxinit b) m c) →
      (gen94 fs c l).2.1 = sumFile (gostsumDigest b) fs l ∧ ((gen94 fs c l).2.2 = 0 ↔ ∀ name ∈ l, (contents fs name).isSome) := by
    intro l
    induction l with
    | nil => intro c _; simp [gen94, sumFile]
    | cons x xs ih =>
      intro c h
      obtain ⟨he, hi⟩ := hash_file94_eq b fs c x h (hs x)
      obtain ⟨h1, h2⟩ := ih _ hi
      rw [gen94, sumFile]
      simp only [he, List.forall_mem_cons]
      cases hx : contents fs x with
      | none => simp [h1]
      | some m => simp [h1, h2, sumLine]
  obtain ⟨k1, k2⟩ := key names _ ⟨[], init_ctx_inv c (some b)⟩
  refine ⟨k1, ?_⟩
  unfold gostsum_gen
  simp only
  rw [← k2]
  by_cases hc : (gen94 fs (init_gost_hash_ctx c (some b)) names).2.2 = 0 <;> simp [hc]

/-- **C53**, checking (names of at most 4094 characters): `gostsum -c` on the output of `gostsum`, with the files possibly
changed in between, never runs into undefined behaviour and counts exactly the files that differ, those that cannot be read
any more, and all of them. -/
theorem C53_gostsum_check_partial (c c' : Ctx) (b : SubstBlock) (fs fs' : Files) (names : List Bytes)
    (hn : ∀ name ∈ names, FileName 4094 name) (hs : ∀ name m, contents fs name = some m → m.length < 2 ^ 60)
    (hs' : ∀ name m, contents fs' name = some m → m.length < 2 ^ 60) :
    gostsum_check c' b fs' (gostsum_gen c b fs names).1 = some (sumCheck (gostsumDigest b) fs fs' names) := by
  rw [(C53_gostsum_output c b fs names hs).1]
  have key : ∀ (l : List Bytes) (c : HashCtx), (∀ name ∈ l, FileName 4094 name) → (∃ m, GInv (kboxinit b) m c) →
      check94 fs' c (sumFile (gostsumDigest b) fs l) = some (sumCheck (gostsumDigest b) fs fs' l) := by
    intro l
    induction l with
    | nil =>
      intro c _ _
      rw [check94]
      split
      · rfl
      · rename_i h; simp [sumFile, get_line94] at h
      · rename_i h; simp [sumFile, get_line94] at h
    | cons x xs ih =>
      intro c hn h
      rw [List.forall_mem_cons] at hn
      rw [sumFile, sumCheck]
      cases hx : contents fs x with
      | none => simp only; exact ih c hn.2 h
      | some m =>
        simp only
        have hl := get_line94_sumLine (hexText (gostsumDigest b m)) x (sumFile (gostsumDigest b) fs xs)
          (by rw [hexText_length, gostsumDigest_length b m (hs x m hx)]) (hexText_hex _) hn.1
        rw [show hexText (gostsumDigest b m) ++ [0x20] ++ x ++ [0x0a] ++ sumFile (gostsumDigest b) fs xs =
          sumLine (hexText (gostsumDigest b m)) x ++ sumFile (gostsumDigest b) fs xs from by simp [sumLine]]
        obtain ⟨he, hi⟩ := hash_file94_eq b fs' c x h (hs' x)
        rw [check94]
        split
        · rename_i hg; rw [hl] at hg; cases hg
        · rename_i hg; rw [hl] at hg; cases hg
        · rename_i hash name rest hg
          rw [hl] at hg
          obtain ⟨rfl, rfl, rfl⟩ := LineRes.line.inj hg
          simp only [he]
          rw [ih _ hn.2 hi]
          simp only
          cases hx' : contents fs' x with
          | none => rfl
          | some m' =>
            simp only [Option.map_some]
            by_cases hd : gostsumDigest b m' = gostsumDigest b m
            · rw [if_pos (by rw [hd]), if_pos hd]
            · rw [if_neg (fun hc => hd (hexText_inj _ _ hc)), if_neg hd]
  exact key names _ hn ⟨[], init_ctx_inv c' (some b)⟩

/-- The digest `gost12sum` prints. -/
def gost12sumDigest (long : Bool) (m : Bytes) : Bytes := if long then Streebog.hash512 m else Streebog.hash256 m

theorem gost12sumDigest_length (long : Bool) (m : Bytes) : (gost12sumDigest long m).length = if long then 64 else 32 := by
  obtain ⟨l5, l2⟩ := C30_digest_length ⟨false, false, false, false⟩ [m]
  rw [C30_streebog512_is_standard] at l5
  rw [C30_streebog256_is_standard] at l2
  have hm : [m].flatten = m := by simp
  rw [hm] at l5 l2
  unfold gost12sumDigest
  cases long
  · simp only [Bool.false_eq_true, if_false]; exact l2
  · simp only [if_true]; exact l5

theorem hash_file12_eq (bld : SbBuild) (fs : Files) (name : Bytes) (long : Bool) :
    hash_file12 bld fs name (if long then 64 else 32) = (contents fs name).map fun m => hexText (gost12sumDigest long m) := by
  obtain ⟨h1, h2⟩ := C53_gost12sum_hash_any_split bld fs name
  cases long
  · exact h1
  · exact h2

/-- **C53**, generating with `gost12sum`. -/
theorem C53_gost12sum_output (bld : SbBuild) (long : Bool) (fs : Files) (names : List Bytes) :
    (gost12sum_gen bld long fs names).1 = sumFile (gost12sumDigest long) fs names ∧
      ((gost12sum_gen bld long fs names).2 = 0 ↔ ∀ name ∈ names, (contents fs name).isSome) := by
  have key : (gen12 bld fs (if long then 64 else 32) names).1 = sumFile (gost12sumDigest long) fs names ∧
      ((gen12 bld fs (if long then 64 else 32) names).2 = 0 ↔ ∀ name ∈ names, (contents fs name).isSome) := by
    induction names with
    | nil => simp [gen12, sumFile]
    | cons x xs ih =>
      rw [gen12, sumFile]
      simp only [hash_file12_eq, List.forall_mem_cons]
      cases hx : contents fs x with
      | none => simp [ih.1]
      | some m => simp [ih.1, ih.2, sumLine]
  refine ⟨key.1, ?_⟩
  unfold gost12sum_gen
  simp only
  rw [← key.2]
  by_cases hc : (gen12 bld fs (if long then 64 else 32) names).2 = 0 <;> simp [hc]

/-- **C53**, checking with `gost12sum` (names of at most 4029 characters for 256-bit digests, 3965 for 512-bit ones). -/
theorem C53_gost12sum_check_partial (bld bld' : SbBuild) (long : Bool) (fs fs' : Files) (names : List Bytes)
    (hn : ∀ name ∈ names, FileName (if long then 3965 else 4029) name) :
    check12 bld' fs' (gost12sum_gen bld long fs names).1 = some (sumCheck (gost12sumDigest long) fs fs' names) := by
  rw [(C53_gost12sum_output bld long fs names).1]
  induction names with
  | nil =>
    rw [check12]
    have h0 : get_line12 [] = .stop := by
      rw [get_line12]
      split
      · rfl
      · rename_i h; simp [fgets] at h
    split
    · rfl
    · rename_i h; rw [sumFile, h0] at h; cases h
    · rename_i h; rw [sumFile, h0] at h; cases h
  | cons x xs ih =>
    rw [List.forall_mem_cons] at hn
    rw [sumFile, sumCheck]
    cases hx : contents fs x with
    | none => simp only; exact ih hn.2
    | some m =>
      simp only
      have hlen : (hexText (gost12sumDigest long m)).length = if long then 128 else 64 := by
        rw [hexText_length, gost12sumDigest_length]; cases long <;> rfl
      have hl := get_line12_sumLine (hexText (gost12sumDigest long m)) x (sumFile (gost12sumDigest long) fs xs)
        (by rw [hlen]; cases long <;> simp) (hexText_hex _)
        (by rw [hlen, show 4093 - (if long then 128 else 64) = (if long then 3965 else 4029) from by cases long <;> rfl]; exact hn.1)
      rw [show hexText (gost12sumDigest long m) ++ [0x20] ++ x ++ [0x0a] ++ sumFile (gost12sumDigest long) fs xs =
        sumLine (hexText (gost12sumDigest long m)) x ++ sumFile (gost12sumDigest long) fs xs from by simp [sumLine]]
      rw [check12]
      split
      · rename_i hg; rw [hl] at hg; cases hg
      · rename_i hg; rw [hl] at hg; cases hg
      · rename_i hash name rest hg
        rw [hl] at hg
        obtain ⟨rfl, rfl, rfl⟩ := LineRes.line.inj hg
        rw [ih hn.2]
        simp only
        rw [if_neg (by intro h0; rw [h0] at hlen; cases long <;> simp at hlen), hlen,
          show (if long then 128 else 64) / 2 = (if long then 64 else 32) from by cases long <;> rfl, hash_file12_eq]
        cases hx' : contents fs' x with
        | none => rfl
        | some m' =>
          simp only [Option.map_some]
          by_cases hd : gost12sumDigest long m' = gost12sumDigest long m
          · rw [if_pos (by rw [hd]), if_pos hd]
          · rw [if_neg (fun hc => hd (hexText_inj _ _ hc)), if_neg hd]

/-- The exit status of a check is 0 exactly if every file that was listed is still readable with the same digest. -/
theorem sumCheck_exit (digest : Bytes → Bytes) (fs fs' : Files) (names : List Bytes) :
    (sumCheck digest fs fs' names).exit = 0 ↔
      ∀ name ∈ names, ∀ m, contents fs name = some m → ∃ m', contents fs' name = some m' ∧ digest m' = digest m := by
  have key : (sumCheck digest fs fs' names).failcount = 0 ∧ (sumCheck digest fs fs' names).errors = 0 ↔
      ∀ name ∈ names, ∀ m, contents fs name = some m → ∃ m', contents fs' name = some m' ∧ digest m' = digest m := by
    induction names with
    | nil => simp [sumCheck]
    | cons x xs ih =>
      rw [List.forall_mem_cons, ← ih, sumCheck]
      cases hx : contents fs x with
      | none => simp
      | some m =>
        cases hx' : contents fs' x with
        | none => simp
        | some m' =>
          by_cases hd : digest m' = digest m
          · simp [hd]
          · simp [hd]
  rw [← key]
  unfold CheckRes.exit
  split <;> rename_i h
  · simp only [one_ne_zero, false_iff]; omega
  · simp only [true_iff]; omega

/-- **C53.** `gostsum -c` of what `gostsum` printed exits with 0 exactly if every listed file can still be read and has the
same digest: in particular when the contents are unchanged, however the reads split them. -/
theorem C53_gostsum_round_trip_partial (c c' : Ctx) (b : SubstBlock) (fs fs' : Files) (names : List Bytes)
    (hn : ∀ name ∈ names, FileName 4094 name) (hs : ∀ name m, contents fs name = some m → m.length < 2 ^ 60)
    (hs' : ∀ name m, contents fs' name = some m → m.length < 2 ^ 60) :
    (gostsum_check c' b fs' (gostsum_gen c b fs names).1).map CheckRes.exit = some 0 ↔
      ∀ name ∈ names, ∀ m, contents fs name = some m →
        ∃ m', contents fs' name = some m' ∧ G94.hash (E89 (kboxinit b)) m' = G94.hash (E89 (kboxinit b)) m := by
  rw [C53_gostsum_check_partial c c' b fs fs' names hn hs hs', Option.map_some, Option.some_inj, sumCheck_exit]
  simp only [gostsumDigest, List.reverse_inj]

/-- **C53.** The same for `gost12sum`. -/
theorem C53_gost12sum_round_trip_partial (bld bld' : SbBuild) (long : Bool) (fs fs' : Files) (names : List Bytes)
    (hn : ∀ name ∈ names, FileName (if long then 3965 else 4029) name) :
    (check12 bld' fs' (gost12sum_gen bld long fs names).1).map CheckRes.exit = some 0 ↔
      ∀ name ∈ names, ∀ m, contents fs name = some m → ∃ m', contents fs' name = some m' ∧
        (if long then Streebog.hash512 m' = Streebog.hash512 m else Streebog.hash256 m' = Streebog.hash256 m) := by
  rw [C53_gost12sum_check_partial bld bld' long fs fs' names hn, Option.map_some, Option.some_inj, sumCheck_exit]
  cases long <;> simp [gost12sumDigest]

/-! ## Where the property fails -/

/-- A name of 4095 characters, the longest the operating system accepts (`PATH_MAX` counts the terminating NUL). -/
def longName : Bytes := List.replicate 4095 0x78

/-- A digest text. -/
def someHash : Bytes := List.replicate 64 0x30

theorem fgetsGo_short (rest : Bytes) : ∀ (n : Nat) (l : Bytes), (0x0a : Byte) ∉ l → l.length = n → fgetsGo n (l ++ rest) = (l, rest)
  | 0, [], _, _ => rfl
  | n + 1, c :: l, h, hl => by
    rw [List.cons_append, fgetsGo, if_neg (fun hc => h (by simp [hc])),
      fgetsGo_short rest n l (fun hc => h (List.mem_cons_of_mem _ hc)) (by simpa using hl)]

/-- **C53** is false for file names of 4095 characters: `gostsum -c` takes the line apart from its line feed, so that the
next line cannot be parsed: checking then ends (see the next theorem) without looking at the second file, whatever it is. -/
theorem C53_gostsum_long_name_false (hash2 name2 : Bytes) :
    get_line94 (sumLine someHash longName ++ sumLine hash2 name2) = .line someHash longName (0x0a :: sumLine hash2 name2) ∧
      get_line94 (0x0a :: sumLine hash2 name2) = .stop := by
  constructor
  · rw [sumLine_eq]
    unfold get_line94
    rw [if_neg (by simp [someHash])]
    simp only
    rw [List.take_left' (by simp [someHash]), if_neg (by decide +kernel), List.drop_left' (by simp [someHash])]
    simp only
    rw [if_neg (by simp)]
    have hnl : (0x0a : Byte) ∉ longName := by unfold longName; intro h; have := List.eq_of_mem_replicate h; exact absurd this (by decide)
    have hf : fgets (longName ++ 0x0a :: sumLine hash2 name2) = some (longName, 0x0a :: sumLine hash2 name2) := by
      rw [fgets, if_neg (by simp), fgetsGo_short _ _ longName hnl (by simp only [longName, List.length_replicate])]
    rw [hf]
    simp only
    have hz : (0x00 : Byte) ∉ longName := by unfold longName; intro h; have := List.eq_of_mem_replicate h; exact absurd this (by decide)
    rw [cstr_id _ hz]
    have hs : stripNl longName = some longName := by
      unfold stripNl longName
      simp only [List.reverse_replicate]
      have h1 : (List.replicate 4095 (0x78 : Byte)).dropWhile isNl = List.replicate 4095 0x78 := by
        rw [List.replicate_succ, List.dropWhile_cons, show isNl 0x78 = false from by decide]
        simp only [Bool.false_eq_true, if_false]
      rw [h1, if_neg (by rw [List.replicate_succ]; exact List.cons_ne_nil _ _), List.reverse_replicate]
    rw [hs]
  · unfold get_line94
    by_cases h : (0x0a :: sumLine hash2 name2).length < 64
    · rw [if_pos h]
    · rw [if_neg h]
      simp only
      rw [if_pos]
      rw [List.take_succ_cons, List.any_cons, show notHex 0x0a = true from by decide]
      rfl

/-- **C53**: `gostsum -c` ends silently at the first line that is not a checksum line: whatever follows is not checked and
does not influence the exit status. -/
theorem C53_gostsum_malformed_line_ends_check (c : Ctx) (b : SubstBlock) (fs : Files) (f : Bytes) (h : get_line94 f = .stop) :
    (gostsum_check c b fs f).map CheckRes.exit = some 0 := by
  unfold gostsum_check
  rw [check94]
  split
  · rfl
  · rename_i hg; rw [h] at hg; cases hg
  · rename_i hg; rw [h] at hg; cases hg

/-- **C53** is false for `gost12sum` and file names of more than 4029 characters (256-bit digests): the name read back is the
first 4030 characters. -/
theorem C53_gost12sum_long_name_false :
    ∃ name rest, FileName 4095 name ∧ get_line12 (sumLine someHash name) = .line someHash (name.take 4030) rest ∧
      name.take 4030 ≠ name := by
  have hsplit : longName = List.replicate 4030 0x78 ++ List.replicate 65 0x78 := by
    unfold longName; rw [List.replicate_append_replicate]
  have hmem : ∀ (n : Nat) (x : Byte), x ∈ List.replicate n (0x78 : Byte) → x = 0x78 := fun n x h => List.eq_of_mem_replicate h
  refine ⟨longName, List.replicate 65 0x78 ++ [0x0a], ?_, ?_, ?_⟩
  · refine ⟨by unfold longName; rw [List.replicate_succ]; exact List.cons_ne_nil _ _, fun h => absurd (hmem _ _ h) (by decide),
      fun h => absurd (hmem _ _ h) (by decide), ?_, by simp only [longName, List.length_replicate]; exact le_refl _⟩
    unfold longName
    rw [List.getLast?_replicate, if_neg (by omega)]
    decide
  · have ht : longName.take 4030 = List.replicate 4030 0x78 := by
      rw [hsplit, List.take_left' (by rw [List.length_replicate])]
    have hf : fgets (sumLine someHash longName) =
        some (someHash ++ 0x20 :: List.replicate 4030 0x78, List.replicate 65 0x78 ++ [0x0a]) := by
      have hnl : (0x0a : Byte) ∉ someHash ++ 0x20 :: List.replicate 4030 0x78 := by
        intro hc
        rw [List.mem_append, List.mem_cons] at hc
        rcases hc with hc | hc | hc
        · exact absurd (List.eq_of_mem_replicate hc) (by decide)
        · exact absurd hc (by decide)
        · exact absurd (hmem _ _ hc) (by decide)
      have hl : (someHash ++ 0x20 :: List.replicate 4030 (0x78 : Byte)).length = 4095 := by
        rw [List.length_append, List.length_cons, List.length_replicate, someHash, List.length_replicate]
      have he : sumLine someHash longName = (someHash ++ 0x20 :: List.replicate 4030 0x78) ++ (List.replicate 65 0x78 ++ [0x0a]) := by
        rw [sumLine, hsplit]; simp only [List.append_assoc, List.cons_append]
      rw [fgets, if_neg (by rw [sumLine]; simp), he, fgetsGo_short _ _ _ hnl hl]
    have hline : line12 (someHash ++ 0x20 :: List.replicate 4030 0x78) (List.replicate 65 0x78 ++ [0x0a]) =
        some (.line someHash (List.replicate 4030 0x78) (List.replicate 65 0x78 ++ [0x0a])) := by
      have hz : (0x00 : Byte) ∉ someHash ++ 0x20 :: List.replicate 4030 0x78 := by
        intro hc
        rw [List.mem_append, List.mem_cons] at hc
        rcases hc with hc | hc | hc
        · exact absurd (List.eq_of_mem_replicate hc) (by decide)
        · exact absurd hc (by decide)
        · exact absurd (hmem _ _ hc) (by decide)
      have hsp : (0x20 : Byte) ∉ someHash := fun hc => absurd (List.eq_of_mem_replicate hc) (by decide)
      unfold line12
      simp only
      rw [cstr_id _ hz]
      have hd : (someHash ++ 0x20 :: List.replicate 4030 0x78).dropWhile (· = 0x20) = someHash ++ 0x20 :: List.replicate 4030 0x78 := by
        rw [someHash, List.replicate_succ, List.cons_append, List.dropWhile_cons, if_neg (by decide)]
      have hst : stripNl (someHash ++ 0x20 :: List.replicate 4030 0x78) = some (someHash ++ 0x20 :: List.replicate 4030 0x78) := by
        unfold stripNl
        have h1 : ((someHash ++ 0x20 :: List.replicate 4030 0x78).reverse.dropWhile isNl) =
            (someHash ++ 0x20 :: List.replicate 4030 0x78).reverse := by
          rw [List.reverse_append, List.reverse_cons, List.reverse_replicate, List.append_assoc, List.replicate_succ, List.cons_append,
            List.dropWhile_cons, show isNl 0x78 = false from by decide]
          simp only [Bool.false_eq_true, if_false]
        rw [h1, if_neg (by rw [List.reverse_eq_nil_iff]; exact List.append_ne_nil_of_right_ne_nil _ (List.cons_ne_nil _ _)), List.reverse_reverse]
      rw [hd, hst]
      simp only
      rw [if_neg (by rw [List.length_append, List.length_cons, List.length_replicate]; omega)]
      have ht : (someHash ++ 0x20 :: List.replicate 4030 (0x78 : Byte)).takeWhile (· ≠ 0x20) = someHash := by
        rw [List.takeWhile_append_of_pos (by intro c hc; simp; rintro rfl; exact hsp hc), List.takeWhile_cons, if_neg (by decide),
          List.append_nil]
      rw [ht, List.drop_left]
      simp only
      rw [if_neg (by rw [List.replicate_succ]; exact List.cons_ne_nil _ _), if_neg (by decide +kernel), if_neg (by simp [someHash])]
    rw [get_line12, ht]
    split
    · rename_i h; rw [hf] at h; cases h
    · rename_i filename r h
      rw [hf] at h
      obtain ⟨rfl, rfl⟩ := Prod.mk.inj (Option.some.inj h)
      rw [hline]
  · intro h
    have := congrArg List.length h
    rw [List.length_take, longName, List.length_replicate] at this
    omega

/-- **C53**: an empty line in a checksum file makes `gost12sum -c` read before the start of its buffer, and so does a line
consisting only of line ends for `gostsum -c` (after the digest and a space), or a file ending after them. -/
theorem C53_empty_line_out_of_bounds (rest : Bytes) :
    get_line12 (0x0a :: rest) = .ub ∧ get_line94 (someHash ++ 0x20 :: 0x0a :: rest) = .ub ∧ get_line94 (someHash ++ [0x20]) = .ub := by
  have hh : someHash.any notHex = false := by decide +kernel
  have hs : stripNl [0x0a] = none := by decide
  have hf : fgets (0x0a :: rest) = some ([0x0a], rest) := fgets_line [] rest (by simp) (by simp)
  refine ⟨?_, ?_, ?_⟩
  · rw [get_line12]
    split
    · rename_i h; rw [hf] at h; cases h
    · rename_i filename r h
      rw [hf] at h
      obtain ⟨rfl, rfl⟩ := Prod.mk.inj (Option.some.inj h)
      have : line12 [0x0a] rest = some .ub := by
        unfold line12
        rw [cstr_id _ (by decide)]
        simp only
        rw [show ([0x0a] : Bytes).dropWhile (· = 0x20) = [0x0a] from by decide, hs]
        rfl
      rw [this]
  · unfold get_line94
    rw [if_neg (by simp [someHash])]
    simp only
    rw [List.take_left' (by simp [someHash]), hh, if_neg (by simp), List.drop_left' (by simp [someHash])]
    simp only
    rw [if_neg (by simp), hf]
    simp only
    rw [cstr_id _ (by decide), hs]
  · decide +kernel

/-- Witness: a name with spaces and a carriage return inside is accepted. -/
example : FileName 4029 [0x61, 0x20, 0x0d, 0x62] := by
  refine ⟨by simp, by decide, by decide, by decide, by decide⟩

/-- Witness: files with the same contents in different blocks. -/
example : contents (fun _ => some ⟨[[1, 2], [3]], false⟩) [0x61] = contents (fun _ => some ⟨[[1], [2, 3]], false⟩) [0x61] := rfl

/-- A hexadecimal digit of a checksum line. -/
def Spec.IsHexDigit (c : Byte) : Prop :=
  (0x30 ≤ c.toNat ∧ c.toNat ≤ 0x39) ∨ (0x41 ≤ c.toNat ∧ c.toNat ≤ 0x46) ∨ (0x61 ≤ c.toNat ∧ c.toNat ≤ 0x66)

theorem notHex_iff (c : Byte) : notHex c = false ↔ Spec.IsHexDigit c := by
  unfold notHex Spec.IsHexDigit
  simp only [Bool.or_eq_false_iff, Bool.and_eq_false_iff, decide_eq_false_iff_not, BitVec.lt_def]
  have : (0x30 : Byte).toNat = 0x30 ∧ (0x39 : Byte).toNat = 0x39 ∧ (0x41 : Byte).toNat = 0x41 ∧ (0x46 : Byte).toNat = 0x46 ∧
    (0x61 : Byte).toNat = 0x61 ∧ (0x66 : Byte).toNat = 0x66 := ⟨rfl, rfl, rfl, rfl, rfl, rfl⟩
  omega

/-- **C53**: what `gostsum -c` takes for a checksum line starts with 64 hexadecimal digits, which are the checksum compared, and a space. -/
theorem C53_gostsum_checksum_lines (f hash name rest : Bytes) (h : get_line94 f = .line hash name rest) :
    hash = f.take 64 ∧ hash.length = 64 ∧ (∀ c ∈ hash, Spec.IsHexDigit c) ∧ f[64]? = some 0x20 := by
  unfold get_line94 at h
  split at h
  · cases h
  · rename_i hl
    simp only at h
    split at h
    · cases h
    · rename_i hx
      split at h
      · cases h
      · rename_i c f' hd
        split at h
        · cases h
        · rename_i hc
          have hc' : c = 0x20 := Classical.byContradiction hc
          have hh : hash = f.take 64 := by
            split at h
            · cases h
            · split at h
              · cases h
              · cases h; rfl
          refine ⟨hh, by rw [hh, List.length_take]; omega, ?_, ?_⟩
          · intro x hxm
            rw [← notHex_iff]
            rw [hh] at hxm
            simp only [Bool.not_eq_true, List.any_eq_false] at hx
            have := hx x hxm
            simpa using this
          · have : (f.drop 64)[0]? = some c := by rw [hd]; rfl
            rw [List.getElem?_drop] at this
            rw [← hc']; exact this

theorem line12_hex (filename r hash name rest : Bytes) (h : line12 filename r = some (.line hash name rest)) :
    (hash.length = 64 ∨ hash.length = 128 ∨ hash = []) ∧ (∀ c ∈ hash, Spec.IsHexDigit c) ∧ name ≠ [] := by
  unfold line12 at h
  simp only at h
  split at h
  · split at h <;> simp at h
  · split at h
    · simp at h
    · split at h
      · simp at h
      · split at h
        · simp at h
        · rename_i hn
          split at h
          · simp at h
          · rename_i hx
            split at h
            · obtain ⟨h1, h2, -⟩ := LineRes.line.inj (Option.some.inj h)
              rw [← h1, ← h2]
              exact ⟨Or.inr (Or.inr rfl), fun c hc => (List.not_mem_nil hc).elim, hn⟩
            · rename_i hl
              obtain ⟨h1, h2, -⟩ := LineRes.line.inj (Option.some.inj h)
              rw [h1] at hx hl
              rw [← h2]
              refine ⟨?_, ?_, hn⟩
              · by_cases h64 : hash.length = 64
                · exact Or.inl h64
                · exact Or.inr (Or.inl (Classical.byContradiction fun h => hl ⟨h64, h⟩))
              · intro c hc
                rw [← notHex_iff]
                simp only [Bool.not_eq_true, List.any_eq_false] at hx
                simpa using hx c hc

/-- **C53**: the checksums `gost12sum -c` compares are made of 64 or 128 hexadecimal digits (an empty one stands for a line with a
checksum of another length, which is reported as malformed); lines with other characters in the checksum are passed over. -/
theorem C53_gost12sum_checksum_lines (f hash name rest : Bytes) (h : get_line12 f = .line hash name rest) :
    (hash.length = 64 ∨ hash.length = 128 ∨ hash = []) ∧ (∀ c ∈ hash, Spec.IsHexDigit c) ∧ name ≠ [] := by
  induction hn : f.length using Nat.strongRecOn generalizing f with
  | _ n ih =>
    rw [get_line12] at h
    split at h
    · cases h
    · rename_i filename r hg
      have hlt := fgets_lt _ _ _ hg
      simp only at h
      split at h
      · exact ih r.length (by omega) r h rfl
      · rename_i x hx
        rw [h] at hx
        exact line12_hex _ _ _ _ _ hx

end Gost
