import Verif.Lemmas.Loops

/-! # Whole-block modes: generic lemmas -/

namespace Gost
open Spec

/-- Fold a block body over a list of blocks, collecting outputs. -/
def foldB {S : Type} (body : S → Bytes → S × Bytes) : S → List Bytes → S × List Bytes
  | s, [] => (s, [])
  | s, b :: bs =>
    let r := body s b
    let t := foldB body r.1 bs
    (t.1, r.2 :: t.2)

theorem foldB_append {S : Type} (body : S → Bytes → S × Bytes) (s : S) (a b : List Bytes) :
    foldB body s (a ++ b) =
      ((foldB body (foldB body s a).1 b).1, (foldB body s a).2 ++ (foldB body (foldB body s a).1 b).2) := by
  induction a generalizing s with
  | nil => simp [foldB]
  | cons x a ih => simp [foldB, ih]

theorem whileBlocks_blocks {S : Type} (bl : Nat) (hb : 0 < bl) (body : S → Bytes → S × Bytes) (s : S)
    (inp : Bytes) (h : bl ∣ inp.length) :
    whileBlocks bl body s inp =
      ((foldB body s (blocks bl inp)).1, (foldB body s (blocks bl inp)).2.flatten, []) := by
  generalize hn : inp.length = n
  induction n using Nat.strongRecOn generalizing s inp with
  | ind n ih =>
    subst hn
    by_cases hx : inp = []
    · subst hx
      rw [whileBlocks_small _ _ _ _ (by simpa using hb), blocks_nil]; rfl
    · have hpos : 0 < inp.length := List.length_pos_iff.mpr hx
      have hle : bl ≤ inp.length := Nat.le_of_dvd hpos h
      rw [whileBlocks_step _ _ _ _ hb hle, blocks_cons _ hb _ hx]
      simp only [foldB]
      rw [ih (inp.drop bl).length (by simp; omega) _ (inp.drop bl)
        (by simpa using Nat.dvd_sub h (Nat.dvd_refl bl)) rfl]
      simp

/-- Histories of whole-block update calls. -/
theorem feed_blocks {S : Type} (bl : Nat) (hb : 0 < bl) (body : S → Bytes → S × Bytes) (s : S)
    (chunks : List Bytes) (h : ∀ c ∈ chunks, bl ∣ c.length) :
    feed (fun s x => ((whileBlocks bl body s x).1, (whileBlocks bl body s x).2.1)) s chunks =
      ((foldB body s (blocks bl chunks.flatten)).1, (foldB body s (blocks bl chunks.flatten)).2.flatten) := by
  induction chunks generalizing s with
  | nil => simp [feed, blocks_nil, foldB]
  | cons c cs ih =>
    have hc := h c (by simp)
    simp only [feed]
    rw [ih _ (fun c hc => h c (by simp [hc])), List.flatten_cons, blocks_append _ hb _ _ hc,
      foldB_append, whileBlocks_blocks _ hb _ _ _ hc]
    simp

theorem cbcEnc_length (E : Bytes → Bytes) (iv : Bytes) (ps : List Bytes) :
    (cbcEnc E iv ps).length = ps.length := by
  induction ps generalizing iv with
  | nil => rfl
  | cons p ps ih => simp [cbcEnc, ih]

/-- CBC decryption inverts CBC encryption. -/
theorem cbcDec_cbcEnc (bl : Nat) (E D : Bytes → Bytes) (hED : ∀ b, b.length = bl → D (E b) = b)
    (hE : ∀ b, (E b).length = bl) (iv : Bytes) (hiv : iv.length = bl) (ps : List Bytes)
    (h : ∀ p ∈ ps, p.length = bl) : cbcDec D iv (cbcEnc E iv ps) = ps := by
  induction ps generalizing iv with
  | nil => rfl
  | cons p ps ih =>
    have hp := h p (by simp)
    have hl : (xorB iv p).length = bl := by simp; omega
    simp only [cbcEnc, cbcDec]
    rw [ih _ (hE _) (fun q hq => h q (by simp [hq]))]
    congr 1
    show xorB iv (D (E (xorB iv p))) = p
    rw [hED _ hl, xorB_comm iv, xorB_comm iv, xorB_xorB_cancel _ _ (by omega)]

theorem cbcEnc_all (bl : Nat) (E : Bytes → Bytes) (hE : ∀ b, (E b).length = bl) (iv : Bytes) (ps : List Bytes) :
    ∀ c ∈ cbcEnc E iv ps, c.length = bl := by
  induction ps generalizing iv with
  | nil => simp [cbcEnc]
  | cons p ps ih =>
    intro c hc
    simp only [cbcEnc, List.mem_cons] at hc
    rcases hc with rfl | hc
    · exact hE _
    · exact ih _ c hc

/-- ECB inversion. -/
theorem ecb_inverse (bl : Nat) (hb : 0 < bl) (E D : Bytes → Bytes) (hED : ∀ b, b.length = bl → D (E b) = b)
    (hE : ∀ b, (E b).length = bl) (data : Bytes) (h : bl ∣ data.length) :
    ecb bl D (ecb bl E data) = data := by
  unfold ecb
  rw [blocks_of_flatten bl hb _ (by simp; intro b _; exact hE b), List.map_map]
  have : (blocks bl data).map (D ∘ E) = (blocks bl data).map id := by
    apply List.map_congr_left
    intro b hbm
    exact hED b (blocks_all_length bl hb data h b hbm)
  rw [this, List.map_id, blocks_flatten bl hb]

theorem foldB_ecb {S : Type} (body : S → Bytes → S × Bytes) (E : Bytes → Bytes) (P : S → Prop)
    (h : ∀ s b, P s → P (body s b).1 ∧ (body s b).2 = E b) (s : S) (hs : P s) (bs : List Bytes) :
    (foldB body s bs).2 = bs.map E := by
  induction bs generalizing s with
  | nil => rfl
  | cons b bs ih =>
    simp only [foldB, List.map_cons]
    rw [ih _ (h s b hs).1, (h s b hs).2]

theorem foldB_cbcEnc {S : Type} (body : S → Bytes → S × Bytes) (iv : S → Bytes) (E : Bytes → Bytes) (P : S → Prop)
    (h : ∀ s b, P s → P (body s b).1 ∧ (body s b).2 = E (xorB (iv s) b) ∧ iv (body s b).1 = E (xorB (iv s) b))
    (s : S) (hs : P s) (bs : List Bytes) :
    (foldB body s bs).2 = cbcEnc E (iv s) bs := by
  induction bs generalizing s with
  | nil => rfl
  | cons b bs ih =>
    obtain ⟨h1, h2, h3⟩ := h s b hs
    simp only [foldB, cbcEnc]
    rw [ih _ h1, h2, h3]
    rfl

theorem foldB_cbcDec {S : Type} (body : S → Bytes → S × Bytes) (iv : S → Bytes) (D : Bytes → Bytes) (P : S → Prop)
    (h : ∀ s b, P s → P (body s b).1 ∧ (body s b).2 = xorB (iv s) (D b) ∧ iv (body s b).1 = b)
    (s : S) (hs : P s) (bs : List Bytes) :
    (foldB body s bs).2 = cbcDec D (iv s) bs := by
  induction bs generalizing s with
  | nil => rfl
  | cons b bs ih =>
    obtain ⟨h1, h2, h3⟩ := h s b hs
    simp only [foldB, cbcDec]
    rw [ih _ h1, h2, h3]
    rfl

end Gost
