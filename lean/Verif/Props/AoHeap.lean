import Verif.Model.AoHeap
import Verif.Props.AcpkmOmac

/-!
# C68, C69: copies of CTR-ACPKM-OMAC contexts, and the digest contexts they own

The specification keeps every context *by value*: a copy is a copy of the value and nothing is shared.  The code keeps the MAC of a context
in a digest context of its own on the heap.
-/

namespace Gost.Spec

/-- The contexts by value (`none` freed, `some none` without a cipher) and the random draws left. -/
structure AoVals (n : OmacCipher) where
  ctx : Nat → Option (Option (AoCtx (AoState n)))
  draws : List Bytes

/-- A call on the value of context `i`. -/
def aoValOn {n : OmacCipher} (v : AoVals n) (i : Nat) (f : AoCtx (AoState n) → Option (AoCtx (AoState n) × Int × Bytes)) :
    Option (AoVals n × Int × Bytes) :=
  match v.ctx i with
  | none => none
  | some none => some (v, 0, [])
  | some (some a) => (f a).map fun r => ({ v with ctx := setCtx v.ctx i (some (some r.1)) }, r.2)

/-- The outcome of a data or final call; `none`: a NULL pointer was used, since no key was set. -/
def aoRet {n : OmacCipher} : AoRes (AoState n) → Option (AoCtx (AoState n) × Int × Bytes)
  | .nullDeref => none
  | .ret a o r => some (a, r, o)

/-- One call on values; `none`: the caller uses a freed context, copies a context to itself, or uses a context for data before it has a
key.  A context without a key cannot be copied: the target is left without a cipher. -/
def aoValStep (X : Crypto) (rng : Nat → Fin 8 → W32) (cd : Asn1Codec) {n : OmacCipher} (v : AoVals n) :
    AoCall → Option (AoVals n × Int × Bytes)
  | .init i key iv enc =>
    (v.ctx i).map fun x =>
      let r := aoInit X rng n (x.getD (aoFresh rng n)) key iv enc v.draws
      ({ ctx := setCtx v.ctx i (some (some r.1)), draws := r.2.2 }, r.2.1, [])
  | .update i x => aoValOn v i fun a => aoRet (aoUpdate n a x)
  | .final i => aoValOn v i fun a => aoRet (aoFinal X n a)
  | .attr i b => aoValOn v i fun a => some ((process_unprotected_dec n a b).1, (process_unprotected_dec n a b).2, [])
  | .unprot i => aoValOn v i fun a => some (a, 1, process_unprotected_enc n a)
  | .getParams i p => aoValOn v i fun a => some ((aoGetParams cd n a p).1, (aoGetParams cd n a p).2, [])
  | .setParams i => aoValOn v i fun a => some ((aoSetParams cd n a).1, (aoSetParams cd n a).2.2, asnBytes (aoSetParams cd n a).2.1)
  | .mesh i m => aoValOn v i fun a => some ((aoMesh n a m).1, (aoMesh n a m).2, [])
  | .copy i j =>
    if i = j then none
    else
      match v.ctx i, v.ctx j with
      | some none, some _ => some (v, 0, [])
      | some (some a), some _ =>
        if a.omac_ctx.isSome then some ({ v with ctx := setCtx v.ctx j (some (some a)) }, 1, [])
        else some ({ v with ctx := setCtx v.ctx j (some none) }, 0, [])
      | _, _ => none
  | .reset i => (v.ctx i).map fun _ => ({ v with ctx := setCtx v.ctx i (some none) }, 1, [])
  | .free i => (v.ctx i).map fun _ => ({ v with ctx := setCtx v.ctx i none }, 1, [])

/-- A history of calls. -/
def aoValRun (X : Crypto) (rng : Nat → Fin 8 → W32) (cd : Asn1Codec) {n : OmacCipher} :
    AoVals n → List AoCall → Option (AoVals n × List (Int × Bytes))
  | v, [] => some (v, [])
  | v, o :: os => (aoValStep X rng cd v o).bind fun r => (aoValRun X rng cd r.1 os).map fun t => (t.1, r.2 :: t.2)

/-- Before anything happened. -/
def aoValStart (n : OmacCipher) (draws : List Bytes) : AoVals n := { ctx := fun _ => some none, draws := draws }

/-- Context `i` holds a key. -/
def AoVals.keyed {n : OmacCipher} (v : AoVals n) (i : Nat) : Bool :=
  match v.ctx i with
  | some (some a) => a.omac_ctx.isSome
  | _ => false

/-- Context `i` has a cipher but no key. -/
def AoVals.unkeyed {n : OmacCipher} (v : AoVals n) (i : Nat) : Bool :=
  match v.ctx i with
  | some (some a) => a.omac_ctx.isNone
  | _ => false

/-- The calls that lose a digest context: a key for a context that has one, and a copy of a context that has none. -/
def aoLoses {n : OmacCipher} (v : AoVals n) : AoCall → Bool
  | .init i key _ _ => key.isSome && v.keyed i
  | .copy i _ => v.unkeyed i
  | _ => false

/-- How many calls of a history lose one. -/
def aoLosses (X : Crypto) (rng : Nat → Fin 8 → W32) (cd : Asn1Codec) {n : OmacCipher} : AoVals n → List AoCall → Nat
  | _, [] => 0
  | v, o :: os =>
    match aoValStep X rng cd v o with
    | none => 0
    | some r => (aoLoses v o).toNat + aoLosses X rng cd r.1 os

end Gost.Spec

namespace Gost

open Spec

/-- The methods of both ciphers. -/
def aoOps (X : Crypto) (rng : Nat → Fin 8 → W32) (cd : Asn1Codec) : (n : OmacCipher) → AoOps (AoState n)
  | .magma => magmaAo X rng cd (freshCtx rng false)
  | .kuznyechik => kuzAo X rng cd freshKCtx

/-! ## Representation -/

variable {σ : Type}

/-- The data `d` stand for the value `a`. -/
structure AoMatch (h : MdHeap) (d : AoData σ) (a : AoCtx σ) : Prop where
  c : a.c = d.c
  seed : a.kdf_seed = d.kdf_seed
  tag : a.tag = d.tag
  md : (d.omac_ctx = none ∧ a.omac_ctx = none) ∨ ∃ p s, d.omac_ctx = some p ∧ h.obj p = some (some s) ∧ a.omac_ctx = some s

/-- A context stands for a value. -/
def CtxMatch (ok : σ → Bool) (h : MdHeap) : Option (Option (AoData σ)) → Option (Option (AoCtx σ)) → Prop
  | none, none => True
  | some none, some none => True
  | some (some d), some (some a) => AoMatch h d a ∧ ok d.c = true
  | _, _ => False

/-- The digest context a context owns. -/
def ptrOf : Option (Option (AoData σ)) → Option Nat
  | some (some d) => d.omac_ctx
  | _ => none

/-- The memory stands for the values, and the digest contexts that are allocated and owned by no context are those in `L`. -/
structure AoRel (ok : σ → Bool) (s : AoMem σ) (ctx : Nat → Option (Option (AoCtx σ))) (L : List Nat) : Prop where
  ctxs : ∀ i, CtxMatch ok s.heap (s.ctx i) (ctx i)
  inj : ∀ i j p, ptrOf (s.ctx i) = some p → ptrOf (s.ctx j) = some p → i = j
  live : ∀ p, s.heap.obj p ≠ none ↔ p ∈ L ∨ ∃ i, ptrOf (s.ctx i) = some p
  nodup : L.Nodup
  lost : ∀ p, p ∈ L → ∀ i, ptrOf (s.ctx i) ≠ some p
  bound : ∀ p, s.heap.obj p ≠ none → p < s.heap.next

theorem ctxMatch_frame {ok : σ → Bool} {h h' : MdHeap} {x : Option (Option (AoData σ))} {y : Option (Option (AoCtx σ))}
    (M : CtxMatch ok h x y) (hf : ∀ q, ptrOf x = some q → h'.obj q = h.obj q) : CtxMatch ok h' x y := by
  rcases x with _ | _ | d <;> rcases y with _ | _ | a <;> try exact M
  obtain ⟨⟨h1, h2, h3, h4⟩, ho⟩ := M
  refine ⟨⟨h1, h2, h3, ?_⟩, ho⟩
  rcases h4 with h4 | ⟨p, s, hp, hs, ha⟩
  · exact .inl h4
  · exact .inr ⟨p, s, hp, by rw [hf p hp]; exact hs, ha⟩

/-- A call that changes context `i` and the heap. -/
theorem ao_rel_set {ok : σ → Bool} {s : AoMem σ} {v : Nat → Option (Option (AoCtx σ))} {L : List Nat} (R : AoRel ok s v L) (i : Nat)
    {x : Option (Option (AoData σ))} {y : Option (Option (AoCtx σ))} {h : MdHeap} {ds : List Bytes} {L' : List Nat}
    (hm : CtxMatch ok h x y) (hframe : ∀ j q, j ≠ i → ptrOf (s.ctx j) = some q → h.obj q = s.heap.obj q)
    (hown : ∀ p, ptrOf x = some p → ∀ j, j ≠ i → ptrOf (s.ctx j) ≠ some p)
    (hlive : ∀ p, h.obj p ≠ none ↔ p ∈ L' ∨ ptrOf x = some p ∨ ∃ j, j ≠ i ∧ ptrOf (s.ctx j) = some p)
    (hnd : L'.Nodup) (hlost : ∀ p, p ∈ L' → ptrOf x ≠ some p ∧ ∀ j, j ≠ i → ptrOf (s.ctx j) ≠ some p)
    (hb : ∀ p, h.obj p ≠ none → p < h.next) :
    AoRel ok { ctx := setCtx s.ctx i x, heap := h, draws := ds } (setCtx v i y) L' := by
  refine ⟨?_, ?_, ?_, hnd, ?_, hb⟩
  · intro j
    by_cases hj : j = i
    · subst hj; simp only [setCtx, if_true]; exact hm
    · simp only [setCtx, if_neg hj]
      exact ctxMatch_frame (R.ctxs j) (fun q hq => hframe j q hj hq)
  · intro j k p hj hk
    by_cases h1 : j = i <;> by_cases h2 : k = i
    · rw [h1, h2]
    · subst h1
      simp only [setCtx, if_true, if_neg h2] at hj hk
      exact absurd hk (hown p hj k h2)
    · subst h2
      simp only [setCtx, if_true, if_neg h1] at hj hk
      exact absurd hj (hown p hk j h1)
    · simp only [setCtx, if_neg h1, if_neg h2] at hj hk
      exact R.inj j k p hj hk
  · intro p
    rw [hlive]
    refine or_congr Iff.rfl ⟨?_, ?_⟩
    · rintro (hp | ⟨j, hj, hp⟩)
      · exact ⟨i, by simpa [setCtx] using hp⟩
      · exact ⟨j, by simpa [setCtx, hj] using hp⟩
    · rintro ⟨j, hj⟩
      by_cases h1 : j = i
      · subst h1; simp only [setCtx, if_true] at hj; exact .inl hj
      · simp only [setCtx, if_neg h1] at hj; exact .inr ⟨j, h1, hj⟩
  · intro p hp j
    obtain ⟨h1, h2⟩ := hlost p hp
    by_cases hj : j = i
    · subst hj; simpa [setCtx] using h1
    · simpa [setCtx, hj] using h2 j hj

/-- What a method does to the digest contexts of its data. -/
inductive AoEffect (h : MdHeap) (d : AoData σ) (a : AoCtx σ) (h' : MdHeap) (d' : AoData σ) (a' : AoCtx σ) : Bool → Prop
  | keep : h' = h → d'.omac_ctx = d.omac_ctx → a'.omac_ctx = a.omac_ctx → AoEffect h d a h' d' a' false
  | write (p : Nat) (s : MacSign) : d.omac_ctx = some p → d'.omac_ctx = some p → h' = h.write p (some s) → a'.omac_ctx = some s →
      AoEffect h d a h' d' a' false
  | renew (s : MacSign) : d'.omac_ctx = some h.next → h' = (h.alloc none).1.write h.next (some s) → a'.omac_ctx = some s →
      AoEffect h d a h' d' a' true
  | drop : d'.omac_ctx = none → (h.alloc none).1.free (some h.next) = some h' → a'.omac_ctx = none → AoEffect h d a h' d' a' true

/-- The list of lost digest contexts afterwards. -/
def lostAfter (L : List Nat) (fresh : Bool) (old : Option Nat) : List Nat :=
  if fresh then old.toList ++ L else L

theorem rel_effect {ok : σ → Bool} {s : AoMem σ} {v : Nat → Option (Option (AoCtx σ))} {L : List Nat} (R : AoRel ok s v L) {i : Nat}
    {d0 d : AoData σ} {a0 a : AoCtx σ} {h : MdHeap} {ds : List Bytes} {fr : Bool}
    (hi : (s.ctx i = some (some d0) ∧ AoMatch s.heap d0 a0) ∨ (ptrOf (s.ctx i) = none ∧ d0.omac_ctx = none ∧ a0.omac_ctx = none))
    (E : AoEffect s.heap d0 a0 h d a fr) (hc : a.c = d.c) (hs : a.kdf_seed = d.kdf_seed) (ht : a.tag = d.tag) (hok : ok d.c = true) :
    AoRel ok { ctx := setCtx s.ctx i (some (some d)), heap := h, draws := ds } (setCtx v i (some (some a)))
      (lostAfter L fr d0.omac_ctx) := by
  have hptr : ptrOf (s.ctx i) = d0.omac_ctx := by
    rcases hi with ⟨h1, _⟩ | ⟨h1, h2, _⟩
    · rw [h1]; rfl
    · rw [h1, h2]
  have hmd : (d0.omac_ctx = none ∧ a0.omac_ctx = none) ∨
      ∃ p s', d0.omac_ctx = some p ∧ s.heap.obj p = some (some s') ∧ a0.omac_ctx = some s' := by
    rcases hi with ⟨_, h2⟩ | ⟨_, h2⟩
    · exact h2.md
    · exact .inl h2
  have hsplit : ∀ p, (∃ j, ptrOf (s.ctx j) = some p) ↔ d0.omac_ctx = some p ∨ ∃ j, j ≠ i ∧ ptrOf (s.ctx j) = some p := by
    intro p
    constructor
    · rintro ⟨j, hj⟩
      by_cases h1 : j = i
      · subst h1; rw [hptr] at hj; exact .inl hj
      · exact .inr ⟨j, h1, hj⟩
    · rintro (h1 | ⟨j, _, hj⟩)
      · exact ⟨i, hptr.trans h1⟩
      · exact ⟨j, hj⟩
  have hne : ∀ p, ∀ j, j ≠ i → d0.omac_ctx = some p → ptrOf (s.ctx j) ≠ some p := by
    intro p j hj hp hq
    exact hj (R.inj j i p hq (hptr.trans hp))
  have hnext : s.heap.obj s.heap.next = none := by
    cases hx : s.heap.obj s.heap.next with
    | none => rfl
    | some m => exact absurd (R.bound _ (by rw [hx]; simp)) (Nat.lt_irrefl _)
  have hown : ∀ j q, ptrOf (s.ctx j) = some q → q ≠ s.heap.next := by
    intro j q hq h1
    subst h1
    exact (R.live _).2 (.inr ⟨j, hq⟩) hnext
  have hLn : ∀ p, p ∈ L → p ≠ s.heap.next := by
    intro q hq h1
    subst h1
    exact (R.live _).2 (.inl hq) hnext
  cases E with
  | keep h1 h2 h3 =>
    subst h1
    refine ao_rel_set R i ⟨⟨hc, hs, ht, by rw [h2, h3]; exact hmd⟩, hok⟩ (fun _ _ _ _ => rfl) ?_ ?_ R.nodup ?_ R.bound
    · intro p hp j hj
      exact hne p j hj (h2.symm.trans hp)
    · intro p
      rw [R.live, hsplit]
      simp only [lostAfter, ptrOf, h2]; rfl
    · intro p hp
      refine ⟨fun hq => R.lost p hp i (hptr.trans (h2.symm.trans hq)), fun j _ => R.lost p hp j⟩
  | write p s' h1 h2 h3 h4 =>
    subst h3
    have hpl : s.heap.obj p ≠ none := (R.live p).2 (.inr ⟨i, hptr.trans h1⟩)
    refine ao_rel_set R i ⟨⟨hc, hs, ht, .inr ⟨p, s', h2, by simp [Heap.write], h4⟩⟩, hok⟩ ?_ ?_ ?_ R.nodup ?_ ?_
    · intro j q hj hq
      have : q ≠ p := by intro h5; subst h5; exact hne q j hj h1 hq
      simp [Heap.write, this]
    · intro q hq j hj
      have : q = p := by simp only [ptrOf, h2, Option.some.injEq] at hq; exact hq.symm
      subst this
      exact hne q j hj h1
    · intro q
      have : (s.heap.write p (some s')).obj q ≠ none ↔ s.heap.obj q ≠ none := by
        by_cases h5 : q = p
        · subst h5; simpa [Heap.write] using hpl
        · simp [Heap.write, h5]
      rw [this, R.live, hsplit]
      simp only [lostAfter, ptrOf, h1, h2]; rfl
    · intro q hq
      refine ⟨fun h5 => R.lost q hq i (hptr.trans ?_), fun j _ => R.lost q hq j⟩
      simp only [ptrOf, h2] at h5
      rw [h1]; exact h5
    · intro q hq
      by_cases h5 : q = p
      · subst h5; exact R.bound q hpl
      · simp only [Heap.write, if_neg h5] at hq; exact R.bound q hq
  | renew s' h1 h2 h3 =>
    subst h2
    have hobj : ∀ q, ((s.heap.alloc none).1.write s.heap.next (some s')).obj q = if q = s.heap.next then some (some s') else s.heap.obj q := by
      intro q
      by_cases h5 : q = s.heap.next <;> simp [Heap.write, Heap.alloc, h5]
    refine ao_rel_set R i ⟨⟨hc, hs, ht, .inr ⟨_, s', h1, by rw [hobj, if_pos rfl], h3⟩⟩, hok⟩ ?_ ?_ ?_ ?_ ?_ ?_
    · intro j q hj hq
      rw [hobj, if_neg (hown j q hq)]
    · intro q hq j hj h5
      simp only [ptrOf, h1, Option.some.injEq] at hq
      exact hown j q h5 hq.symm
    · intro q
      rw [hobj]
      simp only [lostAfter, if_true, List.mem_append, Option.mem_toList, ptrOf, h1, Option.some.injEq]
      by_cases h5 : q = s.heap.next
      · simp [h5]
      · rw [if_neg h5, R.live, hsplit]
        constructor
        · rintro (h6 | h6 | h6)
          · exact .inl (.inr h6)
          · exact .inl (.inl h6)
          · exact .inr (.inr h6)
        · rintro ((h6 | h6) | h6 | h6)
          · exact .inr (.inl h6)
          · exact .inl h6
          · exact absurd h6.symm h5
          · exact .inr (.inr h6)
    · simp only [lostAfter, if_true]
      cases h6 : d0.omac_ctx with
      | none => exact R.nodup
      | some q =>
        refine List.nodup_cons.2 ⟨fun h7 => R.lost q h7 i (hptr.trans h6), R.nodup⟩
    · intro q hq
      simp only [lostAfter, if_true, List.mem_append, Option.mem_toList] at hq
      simp only [ptrOf, h1]
      rcases hq with hq | hq
      · refine ⟨fun h6 => ?_, fun j hj => hne q j hj hq⟩
        cases h6
        exact hown i _ (hptr.trans hq) rfl
      · exact ⟨fun h6 => hLn q hq (Option.some.inj h6).symm, fun j _ => R.lost q hq j⟩
    · intro q hq
      rw [hobj] at hq
      show q < s.heap.next + 1
      by_cases h5 : q = s.heap.next
      · omega
      · rw [if_neg h5] at hq; have := R.bound q hq; omega
  | drop h1 h2 h3 =>
    have hobj : ∀ q, h.obj q = s.heap.obj q := by
      intro q
      simp only [Heap.free, Heap.alloc, if_true, Option.map_some, Option.some.injEq] at h2
      subst h2
      by_cases h5 : q = s.heap.next
      · simp [h5, hnext]
      · simp [h5]
    have hnx : h.next = s.heap.next + 1 := by
      simp only [Heap.free, Heap.alloc, if_true, Option.map_some, Option.some.injEq] at h2
      subst h2
      rfl
    refine ao_rel_set R i ⟨⟨hc, hs, ht, .inl ⟨h1, h3⟩⟩, hok⟩ (fun j q _ _ => hobj q) ?_ ?_ ?_ ?_ ?_
    · intro q hq
      simp only [ptrOf, h1] at hq; cases hq
    · intro q
      rw [hobj, R.live, hsplit]
      simp only [lostAfter, if_true, List.mem_append, Option.mem_toList, ptrOf, h1]
      constructor
      · rintro (h6 | h6 | h6)
        · exact .inl (.inr h6)
        · exact .inl (.inl h6)
        · exact .inr (.inr h6)
      · rintro ((h6 | h6) | h6 | h6)
        · exact .inr (.inl h6)
        · exact .inl h6
        · cases h6
        · exact .inr (.inr h6)
    · simp only [lostAfter, if_true]
      cases h6 : d0.omac_ctx with
      | none => exact R.nodup
      | some q =>
        refine List.nodup_cons.2 ⟨fun h7 => R.lost q h7 i (hptr.trans h6), R.nodup⟩
    · intro q hq
      simp only [lostAfter, if_true, List.mem_append, Option.mem_toList] at hq
      simp only [ptrOf, h1]
      rcases hq with hq | hq
      · exact ⟨fun h6 => (by cases h6), fun j hj => hne q j hj hq⟩
      · exact ⟨fun h6 => (by cases h6), fun j _ => R.lost q hq j⟩
    · intro q hq
      rw [hobj] at hq
      have := R.bound q hq
      omega

/-! ## The methods -/

theorem kuz_type_do (c : KCtx) (x : Bytes) : (gost_grasshopper_cipher_do_ctracpkm c x).1.type = c.type := by
  have hg : ∀ e : KCtx, (kAcpkmGamma e).type = e.type := by
    intro e; unfold kAcpkmGamma apply_acpkm_grasshopper; dsimp only; split <;> rfl
  have hb : ∀ (s : KCtx) b, (kAcpkmBody s b).1.type = s.type := fun s b => hg s
  unfold gost_grasshopper_cipher_do_ctracpkm
  have hw := fun (s : KCtx) inp => whileBlocks_keeps (·.type) 16 kAcpkmBody hb s inp
  dsimp only at hw ⊢
  split
  · exact (hg _).trans (hw _ _)
  · exact hw _ _

theorem kuz_type_init (c : KCtx) (key iv : Option Bytes) (enc : Bool) : (gost_grasshopper_cipher_init c key iv enc 8).type = c.type := by
  cases key <;> cases iv <;> rfl

theorem magma_seed_frame (c : CipherCtx) (o : Option MacSign) (sd t : Bytes) (key iv : Option Bytes) (enc : Bool) (ds : List Bytes) :
    magma_cipher_init_seed ⟨c, o, sd, t⟩ key iv enc ds =
      (⟨(magma_cipher_init_seed ⟨c, none, sd, t⟩ key iv enc ds).1.c, o, (magma_cipher_init_seed ⟨c, none, sd, t⟩ key iv enc ds).1.kdf_seed, t⟩,
        (magma_cipher_init_seed ⟨c, none, sd, t⟩ key iv enc ds).2) := by
  unfold magma_cipher_init_seed
  by_cases hc : (!c.appData && enc) = true
  · simp only [hc, if_true]
    rcases init_zero_kdf_seed sd ds with _ | ⟨s, e⟩ <;> rfl
  · simp only [hc]; rfl

theorem final_frame {σ : Type} (X : Crypto) (f : σ → Bytes → σ × Bytes) (enc : Bool) (c : σ) (o : Option MacSign) (sd t : Bytes) (s : MacSign) :
    ∃ y t' b r, gost2015_final_call X f enc ⟨c, none, sd, t⟩ s = .ret ⟨(f c y).1, none, sd, t'⟩ b r ∧
      gost2015_final_call X f enc ⟨c, o, sd, t⟩ s = .ret ⟨(f c y).1, o, sd, t'⟩ b r := by
  unfold gost2015_final_call
  cases enc with
  | true =>
    simp only [if_true]
    by_cases h0 : (s.final X).2.1 = 0
    · simp only [h0, if_true]
      exact ⟨_, _, _, _, rfl, rfl⟩
    · simp only [if_neg h0]
      exact ⟨_, _, _, _, rfl, rfl⟩
  | false =>
    rw [if_neg Bool.false_ne_true, if_neg Bool.false_ne_true]
    dsimp only
    by_cases h0 : (s.final X).2.1 = 0
    · rw [if_pos h0, if_pos h0]
      exact ⟨_, _, _, _, rfl, rfl⟩
    · rw [if_neg h0, if_neg h0]
      split
      · exact ⟨_, _, _, _, rfl, rfl⟩
      · exact ⟨_, _, _, _, rfl, rfl⟩

/-- The initialisation does the same to the data and to the value. -/
theorem init_effect (X : Crypto) (rng : Nat → Fin 8 → W32) (cd : Asn1Codec) (n : OmacCipher) (h : MdHeap) (d : AoData (AoState n))
    (a : AoCtx (AoState n)) (hc : a.c = d.c) (hs : a.kdf_seed = d.kdf_seed) (ht : a.tag = d.tag) (key iv : Option Bytes) (enc : Bool)
    (draws : List Bytes) :
    ∃ h' d' r ds a', (aoOps X rng cd n).init h d key iv enc draws = some (h', d', r, ds) ∧
      aoInit X rng n a key iv enc draws = (a', r, ds) ∧ AoEffect h d a h' d' a' key.isSome ∧
      a'.c = d'.c ∧ a'.kdf_seed = d'.kdf_seed ∧ a'.tag = d'.tag ∧ (aoOps X rng cd n).copyOk d'.c = true := by
  obtain ⟨ac, ao, as, at'⟩ := a
  obtain ⟨dc, dp, dsd, dt⟩ := d
  dsimp only at hc hs ht
  subst hc hs ht
  have hfree : ∃ h', (h.alloc none).1.free (some (h.alloc none).2) = some h' := by
    simp only [Heap.free, Heap.alloc, if_true, Option.map_some]
    exact ⟨_, rfl⟩
  obtain ⟨h', hfree⟩ := hfree
  cases n with
  | magma =>
    cases key with
    | none =>
      refine ⟨h, ⟨(magma_cipher_init_seed ⟨ac, none, as, at'⟩ none iv enc draws).1.c, dp,
        (magma_cipher_init_seed ⟨ac, none, as, at'⟩ none iv enc draws).1.kdf_seed, at'⟩,
        (magma_cipher_init_seed ⟨ac, none, as, at'⟩ none iv enc draws).2.1,
        (magma_cipher_init_seed ⟨ac, none, as, at'⟩ none iv enc draws).2.2, _, rfl, magma_seed_frame ac ao as at' none iv enc draws,
        .keep rfl rfl rfl, rfl, rfl, rfl, rfl⟩
    | some k =>
      rcases hsd : acpkmOmacSeed enc as draws with _ | ⟨seed, ds⟩
      · refine ⟨h', ⟨{ ac with encrypting := enc }, none, as, at'⟩, 0, draws, ⟨{ ac with encrypting := enc }, none, as, at'⟩, ?_, ?_,
          .drop rfl hfree rfl, rfl, rfl, rfl, rfl⟩
        · simp only [aoOps, magmaAo, magmaPtrInit, hsd, hfree, Option.map_some]
        · simp only [aoInit, magma_cipher_init_ctr_acpkm_omac, hsd]
      · rcases hk : acpkmOmacKeys X rng .magma k seed with _ | ⟨s, ck⟩
        · refine ⟨h', ⟨{ ac with encrypting := enc }, none, seed, at'⟩, 0, ds, ⟨{ ac with encrypting := enc }, none, seed, at'⟩, ?_, ?_,
            .drop rfl hfree rfl, rfl, rfl, rfl, rfl⟩
          · simp only [aoOps, magmaAo, magmaPtrInit, hsd, hk, hfree, Option.map_some]
          · simp only [aoInit, magma_cipher_init_ctr_acpkm_omac, hsd, hk]
        · refine ⟨(h.alloc none).1.write h.next (some s),
            ⟨(magma_cipher_init_seed ⟨ac, none, seed, at'⟩ (some ck) iv enc ds).1.c, some h.next,
              (magma_cipher_init_seed ⟨ac, none, seed, at'⟩ (some ck) iv enc ds).1.kdf_seed, at'⟩,
            (magma_cipher_init_seed ⟨ac, none, seed, at'⟩ (some ck) iv enc ds).2.1,
            (magma_cipher_init_seed ⟨ac, none, seed, at'⟩ (some ck) iv enc ds).2.2, _, ?_,
            Eq.trans ?_ (magma_seed_frame ac (some s) seed at' (some ck) iv enc ds), .renew s rfl rfl rfl, rfl, rfl, rfl, rfl⟩
          · simp only [aoOps, magmaAo, magmaPtrInit, hsd, hk, AoData.bare]; rfl
          · simp only [aoInit, magma_cipher_init_ctr_acpkm_omac, hsd, hk]
  | kuznyechik =>
    have hty : ∀ (c : KCtx) key iv enc, c.type = .ctracpkmomac →
        ((gost_grasshopper_cipher_init c key iv enc 8).type == KType.ctracpkmomac) = true := by
      intro c key iv enc h; rw [kuz_type_init, h]; rfl
    cases key with
    | none =>
      exact ⟨h, _, _, _, _, rfl, rfl, .keep rfl rfl rfl, rfl, rfl, rfl, hty _ _ _ _ rfl⟩
    | some k =>
      rcases hsd : acpkmOmacSeed enc as draws with _ | ⟨seed, ds⟩
      · refine ⟨h', ⟨{ ac with type := .ctracpkmomac, num := 0, section_size := 4096, encrypting := enc }, none, as, at'⟩, 0, draws,
          ⟨{ ac with type := .ctracpkmomac, num := 0, section_size := 4096, encrypting := enc }, none, as, at'⟩, ?_, ?_,
          .drop rfl hfree rfl, rfl, rfl, rfl, rfl⟩
        · simp only [aoOps, kuzAo, kuzPtrInit, hsd, hfree, Option.map_some]
        · simp only [aoInit, gost_grasshopper_cipher_init_ctracpkm_omac, hsd]
      · rcases hk : acpkmOmacKeys X rng .kuznyechik k seed with _ | ⟨s, ck⟩
        · refine ⟨h', ⟨{ ac with type := .ctracpkmomac, num := 0, section_size := 4096, encrypting := enc }, none, seed, at'⟩, 0, ds,
            ⟨{ ac with type := .ctracpkmomac, num := 0, section_size := 4096, encrypting := enc }, none, seed, at'⟩, ?_, ?_,
            .drop rfl hfree rfl, rfl, rfl, rfl, rfl⟩
          · simp only [aoOps, kuzAo, kuzPtrInit, hsd, hk, hfree, Option.map_some]
          · simp only [aoInit, gost_grasshopper_cipher_init_ctracpkm_omac, hsd, hk]
        · have hw : (aoOps X rng cd .kuznyechik).init h ⟨ac, dp, as, at'⟩ (some k) iv enc draws =
              some ((h.alloc none).1.write h.next (some s),
                ⟨gost_grasshopper_cipher_init { ac with type := .ctracpkmomac, num := 0, section_size := 4096 } (some ck) iv enc 8,
                  some h.next, seed, at'⟩, 1, ds) := by
            simp only [aoOps, kuzAo, kuzPtrInit, hsd, hk]; rfl
          have hv : aoInit X rng .kuznyechik ⟨ac, ao, as, at'⟩ (some k) iv enc draws =
              (⟨gost_grasshopper_cipher_init { ac with type := .ctracpkmomac, num := 0, section_size := 4096 } (some ck) iv enc 8,
                  some s, seed, at'⟩, 1, ds) := by
            simp only [aoInit, gost_grasshopper_cipher_init_ctracpkm_omac, hsd, hk]
          exact ⟨_, _, _, _, _, hw, hv, .renew s rfl rfl rfl, rfl, rfl, rfl, hty _ _ _ _ rfl⟩

/-- A method called on a context does to its data what the call does to its value; it is undefined exactly when the call is. -/
def SameOn (n : OmacCipher) (ok : AoState n → Bool) (h : MdHeap) (f : AoData (AoState n) → Option (MdHeap × AoData (AoState n) × Int × Bytes))
    (g : AoCtx (AoState n) → Option (AoCtx (AoState n) × Int × Bytes)) : Prop :=
  ∀ d a, AoMatch h d a → ok d.c = true →
    (f d = none ∧ g a = none) ∨
    ∃ h' d' a' r o, f d = some (h', d', r, o) ∧ g a = some (a', r, o) ∧ AoEffect h d a h' d' a' false ∧
      a'.c = d'.c ∧ a'.kdf_seed = d'.kdf_seed ∧ a'.tag = d'.tag ∧ ok d'.c = true

theorem update_same (X : Crypto) (rng : Nat → Fin 8 → W32) (cd : Asn1Codec) (n : OmacCipher) (h : MdHeap) (x : Bytes) :
    SameOn n (aoOps X rng cd n).copyOk h (fun d => (aoOps X rng cd n).update h d x) (fun a => aoRet (aoUpdate n a x)) := by
  rintro ⟨dc, dp, dsd, dt⟩ ⟨ac, ao, as, at'⟩ ⟨hc, hs, ht, hm⟩ hok
  dsimp only at hc hs ht hm
  subst hc hs ht
  cases n with
  | magma =>
    rcases hm with ⟨rfl, rfl⟩ | ⟨p, s, rfl, hp, rfl⟩
    · exact .inl ⟨rfl, rfl⟩
    · refine .inr ⟨h.write p (some (s.update (if ac.encrypting then x else (magma_cipher_do_ctr ac x).2)).1),
        ⟨(magma_cipher_do_ctr ac x).1, some p, as, at'⟩, _, _, _, ?_, rfl,
        .write p _ rfl rfl rfl rfl, rfl, rfl, rfl, rfl⟩
      simp only [aoOps, magmaAo, magmaPtrUpdate, hp]
  | kuznyechik =>
    rcases hm with ⟨rfl, rfl⟩ | ⟨p, s, rfl, hp, rfl⟩
    · exact .inl ⟨rfl, rfl⟩
    · refine .inr ⟨h.write p (some (s.update (if ac.encrypting then x else (gost_grasshopper_cipher_do_ctracpkm ac x).2)).1),
        ⟨(gost_grasshopper_cipher_do_ctracpkm ac x).1, some p, as, at'⟩, _, _, _, ?_, rfl,
        .write p _ rfl rfl rfl rfl, rfl, rfl, rfl, ?_⟩
      · simp only [aoOps, kuzAo, kuzPtrUpdate, hp]
      · show ((gost_grasshopper_cipher_do_ctracpkm ac x).1.type == KType.ctracpkmomac) = true
        rw [kuz_type_do]; exact hok

theorem final_same (X : Crypto) (rng : Nat → Fin 8 → W32) (cd : Asn1Codec) (n : OmacCipher) (h : MdHeap) :
    SameOn n (aoOps X rng cd n).copyOk h (fun d => (aoOps X rng cd n).final h d) (fun a => aoRet (aoFinal X n a)) := by
  rintro ⟨dc, dp, dsd, dt⟩ ⟨ac, ao, as, at'⟩ ⟨hc, hs, ht, hm⟩ hok
  dsimp only at hc hs ht hm
  subst hc hs ht
  cases n with
  | magma =>
    rcases hm with ⟨rfl, rfl⟩ | ⟨p, s, rfl, hp, rfl⟩
    · exact .inl ⟨rfl, rfl⟩
    · obtain ⟨y, t, b, r, h1, h2⟩ := final_frame X magma_cipher_do_ctr ac.encrypting ac (some s) as at' s
      refine .inr ⟨h, ⟨(magma_cipher_do_ctr ac y).1, some p, as, t⟩, ⟨(magma_cipher_do_ctr ac y).1, some s, as, t⟩, r, b, ?_, ?_,
        .keep rfl rfl rfl, rfl, rfl, rfl, rfl⟩
      · simp only [aoOps, magmaAo, magmaPtrFinal, hp, AoData.bare]
        rw [h1]; rfl
      · simp only [aoFinal, magma_cipher_final_ctr_acpkm_omac]
        rw [h2]; rfl
  | kuznyechik =>
    rcases hm with ⟨rfl, rfl⟩ | ⟨p, s, rfl, hp, rfl⟩
    · exact .inl ⟨rfl, rfl⟩
    · obtain ⟨y, t, b, r, h1, h2⟩ := final_frame X gost_grasshopper_cipher_do_ctracpkm ac.encrypting ac
        (some (if ac.encrypting then (s.update []).1 else s)) as at' (if ac.encrypting then (s.update []).1 else s)
      refine .inr ⟨h.write p (some (if ac.encrypting then (s.update []).1 else s)),
        ⟨(gost_grasshopper_cipher_do_ctracpkm ac y).1, some p, as, t⟩, ⟨(gost_grasshopper_cipher_do_ctracpkm ac y).1, _, as, t⟩, r, b, ?_, ?_,
        .write p _ rfl rfl rfl rfl, rfl, rfl, rfl, ?_⟩
      · simp only [aoOps, kuzAo, kuzPtrFinal, hp, AoData.bare]
        rw [h1]; rfl
      · simp only [aoFinal, gost_grasshopper_cipher_final_ctracpkm_omac]
        rw [h2]; rfl
      · show ((gost_grasshopper_cipher_do_ctracpkm ac y).1.type == KType.ctracpkmomac) = true
        rw [kuz_type_do]; exact hok

theorem attr_same (n : OmacCipher) (ok : AoState n → Bool) (h : MdHeap) (b : Option Bytes) :
    SameOn n ok h (fun d => some (h, { d with tag := (process_unprotected_dec n d.bare b).1.tag }, (process_unprotected_dec n d.bare b).2, []))
      (fun a => some ((process_unprotected_dec n a b).1, (process_unprotected_dec n a b).2, [])) := by
  rintro ⟨dc, dp, dsd, dt⟩ ⟨ac, ao, as, at'⟩ ⟨hc, hs, ht, hm⟩ hok
  dsimp only at hc hs ht hm
  subst hc hs ht
  right
  simp only [process_unprotected_dec, AoData.bare]
  cases b with
  | none => exact ⟨_, _, _, _, _, rfl, rfl, .keep rfl rfl rfl, rfl, rfl, rfl, hok⟩
  | some b =>
    dsimp only
    split
    · exact ⟨_, _, _, _, _, rfl, rfl, .keep rfl rfl rfl, rfl, rfl, rfl, hok⟩
    · exact ⟨_, _, _, _, _, rfl, rfl, .keep rfl rfl rfl, rfl, rfl, rfl, hok⟩

theorem unprot_same (n : OmacCipher) (ok : AoState n → Bool) (h : MdHeap) :
    SameOn n ok h (fun d => some (h, d, 1, process_unprotected_enc n d.bare)) (fun a => some (a, 1, process_unprotected_enc n a)) := by
  rintro d a ⟨hc, hs, ht, hm⟩ hok
  refine .inr ⟨h, d, a, 1, process_unprotected_enc n a, ?_, rfl, .keep rfl rfl rfl, hc, hs, ht, hok⟩
  simp only [process_unprotected_enc, AoData.bare, ht]

theorem kuz_type_getParams (cd : Asn1Codec) (c : KCtx) (s : Bytes) (p : AsnType) :
    (gost_grasshopper_get_asn1_parameters cd c s p).2.1.type = c.type := by
  unfold gost_grasshopper_get_asn1_parameters
  split
  · dsimp only; split <;> rfl
  · rfl

theorem kuz_type_setParams (cd : Asn1Codec) (c : KCtx) (s : Bytes) : (gost_grasshopper_set_asn1_parameters cd c s).2.1.type = c.type := by
  unfold gost_grasshopper_set_asn1_parameters
  split <;> rfl

theorem kuz_type_mesh (c : KCtx) (m : Int) : (gost_grasshopper_cipher_ctl_key_mesh c m).1.type = c.type := by
  unfold gost_grasshopper_cipher_ctl_key_mesh
  split <;> rfl

theorem getParams_same (X : Crypto) (rng : Nat → Fin 8 → W32) (cd : Asn1Codec) (n : OmacCipher) (h : MdHeap) (p : AsnType) :
    SameOn n (aoOps X rng cd n).copyOk h (fun d => some (h, ((aoOps X rng cd n).getParams d p).1, ((aoOps X rng cd n).getParams d p).2, []))
      (fun a => some ((aoGetParams cd n a p).1, (aoGetParams cd n a p).2, [])) := by
  rintro ⟨dc, dp, dsd, dt⟩ ⟨ac, ao, as, at'⟩ ⟨hc, hs, ht, hm⟩ hok
  dsimp only at hc hs ht hm
  subst hc hs ht
  right
  cases n with
  | magma => exact ⟨_, _, _, _, _, rfl, rfl, .keep rfl rfl rfl, rfl, rfl, rfl, hok⟩
  | kuznyechik =>
    refine ⟨_, _, _, _, _, rfl, rfl, .keep rfl rfl rfl, rfl, rfl, rfl, ?_⟩
    show ((gost_grasshopper_get_asn1_parameters cd ac as p).2.1.type == KType.ctracpkmomac) = true
    rw [kuz_type_getParams]; exact hok

theorem setParams_same (X : Crypto) (rng : Nat → Fin 8 → W32) (cd : Asn1Codec) (n : OmacCipher) (h : MdHeap) :
    SameOn n (aoOps X rng cd n).copyOk h
      (fun d => some (h, ((aoOps X rng cd n).setParams d).1, ((aoOps X rng cd n).setParams d).2.2,
        asnBytes ((aoOps X rng cd n).setParams d).2.1))
      (fun a => some ((aoSetParams cd n a).1, (aoSetParams cd n a).2.2, asnBytes (aoSetParams cd n a).2.1)) := by
  rintro ⟨dc, dp, dsd, dt⟩ ⟨ac, ao, as, at'⟩ ⟨hc, hs, ht, hm⟩ hok
  dsimp only at hc hs ht hm
  subst hc hs ht
  right
  cases n with
  | magma => exact ⟨_, _, _, _, _, rfl, rfl, .keep rfl rfl rfl, rfl, rfl, rfl, hok⟩
  | kuznyechik =>
    refine ⟨_, _, _, _, _, rfl, rfl, .keep rfl rfl rfl, rfl, rfl, rfl, ?_⟩
    show ((gost_grasshopper_set_asn1_parameters cd ac as).2.1.type == KType.ctracpkmomac) = true
    rw [kuz_type_setParams]; exact hok

theorem mesh_same (X : Crypto) (rng : Nat → Fin 8 → W32) (cd : Asn1Codec) (n : OmacCipher) (h : MdHeap) (m : Nat) :
    SameOn n (aoOps X rng cd n).copyOk h (fun d => some (h, ((aoOps X rng cd n).mesh d m).1, ((aoOps X rng cd n).mesh d m).2, []))
      (fun a => some ((aoMesh n a m).1, (aoMesh n a m).2, [])) := by
  rintro ⟨dc, dp, dsd, dt⟩ ⟨ac, ao, as, at'⟩ ⟨hc, hs, ht, hm⟩ hok
  dsimp only at hc hs ht hm
  subst hc hs ht
  right
  cases n with
  | magma => exact ⟨_, _, _, _, _, rfl, rfl, .keep rfl rfl rfl, rfl, rfl, rfl, hok⟩
  | kuznyechik =>
    refine ⟨_, _, _, _, _, rfl, rfl, .keep rfl rfl rfl, rfl, rfl, rfl, ?_⟩
    show ((gost_grasshopper_cipher_ctl_key_mesh ac m).1.type == KType.ctracpkmomac) = true
    rw [kuz_type_mesh]; exact hok

/-! ## Steps -/

/-- The same for both: undefined together, or the same answers and related states with the given number of lost digest contexts. -/
def StepSame {n : OmacCipher} (ok : AoState n → Bool) (L : List Nat) (k : Nat) :
    Option (AoMem (AoState n) × Int × Bytes) → Option (AoVals n × Int × Bytes) → Prop
  | none, none => True
  | some (s, r), some (v, r') => r = r' ∧ s.draws = v.draws ∧ ∃ L', AoRel ok s v.ctx L' ∧ L'.length = L.length + k
  | _, _ => False

variable {n : OmacCipher}

theorem on_same {ok : AoState n → Bool} {s : AoMem (AoState n)} {v : AoVals n} {L : List Nat} (R : AoRel ok s v.ctx L)
    (hd : s.draws = v.draws) (i : Nat) {f : AoData (AoState n) → Option (MdHeap × AoData (AoState n) × Int × Bytes)}
    {g : AoCtx (AoState n) → Option (AoCtx (AoState n) × Int × Bytes)} (H : SameOn n ok s.heap f g) :
    StepSame ok L 0 (aoOn s i f) (aoValOn v i g) := by
  have M := R.ctxs i
  unfold aoOn aoValOn
  rcases hx : s.ctx i with _ | _ | d <;> rcases hy : v.ctx i with _ | _ | a <;> rw [hx, hy] at M <;> try exact M.elim
  · trivial
  · exact ⟨rfl, hd, L, R, rfl⟩
  · obtain ⟨m, hok⟩ := M
    rcases H d a m hok with ⟨h1, h2⟩ | ⟨h', d', a', r, o, h1, h2, E, e1, e2, e3, e4⟩
    · simp only [h1, h2, Option.map_none]; trivial
    · simp only [h1, h2, Option.map_some]
      exact ⟨rfl, hd, L, rel_effect (L := L) (fr := false) R (.inl ⟨hx, m⟩) E e1 e2 e3 e4, rfl⟩

theorem fresh_facts (X : Crypto) (rng : Nat → Fin 8 → W32) (cd : Asn1Codec) (n : OmacCipher) :
    (aoFresh rng n).c = (aoOps X rng cd n).fresh.c ∧ (aoFresh rng n).kdf_seed = (aoOps X rng cd n).fresh.kdf_seed ∧
      (aoFresh rng n).tag = (aoOps X rng cd n).fresh.tag ∧ (aoOps X rng cd n).fresh.omac_ctx = none ∧ (aoFresh rng n).omac_ctx = none := by
  cases n <;> exact ⟨rfl, rfl, rfl, rfl, rfl⟩

theorem lostAfter_length (L : List Nat) (fr : Bool) (o : Option Nat) :
    (lostAfter L fr o).length = L.length + (fr && o.isSome).toNat := by
  cases fr <;> cases o <;> simp [lostAfter]

theorem init_same (X : Crypto) (rng : Nat → Fin 8 → W32) (cd : Asn1Codec) {s : AoMem (AoState n)} {v : AoVals n} {L : List Nat}
    (R : AoRel (aoOps X rng cd n).copyOk s v.ctx L) (hd : s.draws = v.draws) (i : Nat) (key iv : Option Bytes) (enc : Bool) :
    StepSame (aoOps X rng cd n).copyOk L (aoLoses v (.init i key iv enc)).toNat
      (aoMemStep (aoOps X rng cd n) s (.init i key iv enc)) (aoValStep X rng cd v (.init i key iv enc)) := by
  have M := R.ctxs i
  unfold aoMemStep aoValStep
  simp only [aoLoses, AoVals.keyed]
  rcases hx : s.ctx i with _ | x <;> rcases hy : v.ctx i with _ | y
  · trivial
  · rw [hx, hy] at M; exact M.elim
  · rw [hx, hy] at M; rcases x with _ | x <;> exact M.elim
  · have hpair : (x.getD (aoOps X rng cd n).fresh).c = (y.getD (aoFresh rng n)).c ∧
        (x.getD (aoOps X rng cd n).fresh).kdf_seed = (y.getD (aoFresh rng n)).kdf_seed ∧
        (x.getD (aoOps X rng cd n).fresh).tag = (y.getD (aoFresh rng n)).tag ∧
        ((s.ctx i = some (some (x.getD (aoOps X rng cd n).fresh)) ∧ AoMatch s.heap (x.getD (aoOps X rng cd n).fresh) (y.getD (aoFresh rng n))) ∨
          (ptrOf (s.ctx i) = none ∧ (x.getD (aoOps X rng cd n).fresh).omac_ctx = none ∧ (y.getD (aoFresh rng n)).omac_ctx = none)) ∧
        (x.getD (aoOps X rng cd n).fresh).omac_ctx.isSome = (match y with | some a => a.omac_ctx.isSome | none => false) := by
      rw [hx, hy] at M
      obtain ⟨f1, f2, f3, f4, f5⟩ := fresh_facts X rng cd n
      rcases x with _ | d <;> rcases y with _ | a <;> try exact M.elim
      · exact ⟨f1.symm, f2.symm, f3.symm, .inr ⟨by rw [hx]; rfl, f4, f5⟩, by simp only [Option.getD_none, f4]; rfl⟩
      · obtain ⟨m, _⟩ := M
        refine ⟨m.c.symm, m.seed.symm, m.tag.symm, .inl ⟨hx, m⟩, ?_⟩
        rcases m.md with ⟨h1, h2⟩ | ⟨p, t, h1, _, h2⟩
        · simp only [Option.getD_some, h1, h2]; rfl
        · simp only [Option.getD_some, h1, h2]; rfl
    obtain ⟨q1, q2, q3, q4, q5⟩ := hpair
    obtain ⟨h', d', r, ds, a', e1, e2, E, c1, c2, c3, c4⟩ :=
      init_effect X rng cd n s.heap (x.getD (aoOps X rng cd n).fresh) (y.getD (aoFresh rng n)) q1.symm q2.symm q3.symm key iv enc s.draws
    rw [hd] at e2
    dsimp only
    rw [e1]
    simp only [Option.map_some, e2]
    refine ⟨rfl, rfl, _, rel_effect R q4 E c1 c2 c3 c4, ?_⟩
    rw [lostAfter_length, q5]
    rcases y with _ | a <;> rfl

/-- A context is reset. -/
theorem ao_rel_free {ok : AoState n → Bool} {s : AoMem (AoState n)} {v : Nat → Option (Option (AoCtx (AoState n)))} {L : List Nat}
    (R : AoRel ok s v L) (i : Nat) (x : Option (AoData (AoState n))) (hx : s.ctx i = some x) (z : Option (Option (AoData (AoState n))))
    (z' : Option (Option (AoCtx (AoState n)))) (hz : (z = none ∧ z' = none) ∨ (z = some none ∧ z' = some none)) :
    ∃ h, aoReset s i x = some { s with ctx := setCtx s.ctx i (some none), heap := h } ∧
      AoRel ok { s with ctx := setCtx s.ctx i z, heap := h } (setCtx v i z') L := by
  have hm : ∀ h : MdHeap, CtxMatch ok h z z' := by
    intro h; rcases hz with ⟨rfl, rfl⟩ | ⟨rfl, rfl⟩ <;> trivial
  have hp : ptrOf z = none := by rcases hz with ⟨rfl, _⟩ | ⟨rfl, _⟩ <;> rfl
  cases hq : ptrOf (s.ctx i) with
  | none =>
    refine ⟨s.heap, ?_, ao_rel_set R i (hm _) (fun _ _ _ _ => rfl) ?_ ?_ R.nodup ?_ R.bound⟩
    · rcases x with _ | d
      · rfl
      · rw [hx] at hq
        simp only [ptrOf] at hq
        simp only [aoReset, hq, Heap.free, Option.map_some]
    · intro p h1; rw [hp] at h1; cases h1
    · intro p
      rw [R.live, hp]
      refine or_congr Iff.rfl ⟨?_, ?_⟩
      · rintro ⟨j, hj⟩
        refine .inr ⟨j, ?_, hj⟩
        rintro rfl
        rw [hq] at hj; cases hj
      · rintro (h1 | ⟨j, _, hj⟩)
        · cases h1
        · exact ⟨j, hj⟩
    · intro p h1
      exact ⟨by rw [hp]; simp, fun j _ => R.lost p h1 j⟩
  | some p =>
    rcases x with _ | d
    · rw [hx] at hq; cases hq
    have hdp : d.omac_ctx = some p := by rw [hx] at hq; exact hq
    have hlive := (R.live p).2 (.inr ⟨i, hq⟩)
    obtain ⟨m, hmo⟩ := Option.ne_none_iff_exists'.1 hlive
    refine ⟨{ s.heap with obj := fun q => if q = p then none else s.heap.obj q }, ?_, ao_rel_set R i (hm _) ?_ ?_ ?_ R.nodup ?_ ?_⟩
    · simp only [aoReset, hdp, Heap.free, hmo, Option.map_some]
    · intro j q hj hjq
      have : q ≠ p := by intro h1; subst h1; exact hj (R.inj j i q hjq hq)
      simp [this]
    · intro q h1; rw [hp] at h1; cases h1
    · intro q
      rw [hp]
      by_cases h1 : q = p
      · subst h1
        simp only [if_true, ne_eq, not_true_eq_false, false_iff]
        rintro (h2 | h2 | ⟨j, hj, h2⟩)
        · exact R.lost q h2 i hq
        · cases h2
        · exact hj (R.inj j i q h2 hq)
      · simp only [if_neg h1]
        rw [R.live]
        refine or_congr Iff.rfl ⟨?_, ?_⟩
        · rintro ⟨j, hj⟩
          refine .inr ⟨j, ?_, hj⟩
          rintro rfl
          rw [hq] at hj; exact h1 (Option.some.inj hj).symm
        · rintro (h2 | ⟨j, _, hj⟩)
          · cases h2
          · exact ⟨j, hj⟩
    · intro q h1
      exact ⟨by rw [hp]; simp, fun j _ => R.lost q h1 j⟩
    · intro q h1
      by_cases h2 : q = p
      · subst h2; simp at h1
      · simp only [if_neg h2] at h1; exact R.bound q h1

theorem ao_setCtx_twice {γ : Type} (c : Nat → γ) (i : Nat) (x y : γ) : setCtx (setCtx c i x) i y = setCtx c i y := by
  funext k; simp only [setCtx]; split <;> rfl

theorem setCtx_other {γ : Type} (c : Nat → γ) {i j : Nat} (h : i ≠ j) (x : γ) : setCtx c j x i = c i := by
  simp only [setCtx, if_neg h]

/-- The copy, onto a context just reset. -/
theorem copy_rel {ok : AoState n → Bool} {s : AoMem (AoState n)} {v : Nat → Option (Option (AoCtx (AoState n)))} {L : List Nat}
    (O : AoOps (AoState n)) (hO : O.copyOk = ok) (R : AoRel ok s v L) (j : Nat) (hj : s.ctx j = some none) (d : AoData (AoState n))
    (a : AoCtx (AoState n)) (m : AoMatch s.heap d a) (hok : ok d.c = true) :
    (a.omac_ctx.isSome = true ∧ ∃ h d', aoEvpCopy O s d j = some ({ s with heap := h, ctx := setCtx s.ctx j (some (some d')) }, 1, []) ∧
      AoRel ok { s with heap := h, ctx := setCtx s.ctx j (some (some d')) } (setCtx v j (some (some a))) L) ∨
    (a.omac_ctx.isSome = false ∧ ∃ h L', aoEvpCopy O s d j = some ({ s with heap := h, ctx := setCtx s.ctx j (some none) }, 0, []) ∧
      AoRel ok { s with heap := h, ctx := setCtx s.ctx j (some none) } (setCtx v j (some none)) L' ∧ L'.length = L.length + 1) := by
  have hok' : ¬ (O.copyOk d.c = false) := by rw [hO, hok]; simp
  have hnext : s.heap.obj s.heap.next = none := by
    cases hx : s.heap.obj s.heap.next with
    | none => rfl
    | some m => exact absurd (R.bound _ (by rw [hx]; simp)) (Nat.lt_irrefl _)
  rcases m.md with ⟨hd, ha⟩ | ⟨p, t, hd, hp, ha⟩
  · refine .inr ⟨by rw [ha]; rfl, (s.heap.alloc none).1, s.heap.next :: L, ?_, ?_, rfl⟩
    · simp only [aoEvpCopy, aoCtrlCopy, if_neg hok', if_true, hd, mdCtxCopy, Option.map_some]
    · have hown : ∀ i q, ptrOf (s.ctx i) = some q → q ≠ s.heap.next := by
        intro i q hq h1
        subst h1
        exact (R.live _).2 (.inr ⟨i, hq⟩) hnext
      have hobj : ∀ q, q ≠ s.heap.next → (s.heap.alloc none).1.obj q = s.heap.obj q := by
        intro q h1; simp [Heap.alloc, h1]
      refine ao_rel_set R j trivial (fun k q _ hq => hobj q (hown k q hq)) (fun q h1 => (by cases h1)) ?_ ?_ ?_ ?_
      · intro q
        by_cases h1 : q = s.heap.next
        · subst h1
          simp [Heap.alloc]
        · rw [hobj q h1, R.live, List.mem_cons]
          constructor
          · rintro (h2 | ⟨k, hk⟩)
            · exact .inl (.inr h2)
            · refine .inr (.inr ⟨k, ?_, hk⟩)
              rintro rfl
              rw [hj] at hk; cases hk
          · rintro ((h2 | h2) | h2 | ⟨k, _, hk⟩)
            · exact absurd h2 h1
            · exact .inl h2
            · cases h2
            · exact .inr ⟨k, hk⟩
      · exact List.nodup_cons.2 ⟨fun h1 => (R.live _).2 (.inl h1) hnext, R.nodup⟩
      · intro q h1
        refine ⟨fun h2 => (by cases h2), fun k _ h2 => ?_⟩
        rcases List.mem_cons.1 h1 with h3 | h3
        · exact hown k q h2 h3
        · exact R.lost q h3 k h2
      · intro q h1
        show q < s.heap.next + 1
        by_cases h2 : q = s.heap.next
        · omega
        · rw [hobj q h2] at h1; have := R.bound q h1; omega
  · have hpn : p ≠ s.heap.next := by intro h1; subst h1; rw [hnext] at hp; cases hp
    have hap : (s.heap.alloc none).1.obj p = some (some t) := by simp only [Heap.alloc, if_neg hpn]; exact hp
    have han : (s.heap.alloc none).1.obj s.heap.next = some none := by simp only [Heap.alloc, if_true]
    refine .inl ⟨by rw [ha]; rfl, (s.heap.alloc none).1.write s.heap.next (some t), { d with omac_ctx := some s.heap.next }, ?_, ?_⟩
    · have hc : aoCtrlCopy O.copyOk s.heap d d =
          some ((s.heap.alloc none).1.write s.heap.next (some t), { d with omac_ctx := some s.heap.next }, 1) := by
        unfold aoCtrlCopy
        rw [if_neg hok', if_pos rfl]
        show (mdCtxCopy (s.heap.alloc none).1 (some s.heap.next) d.omac_ctx).map _ = _
        simp only [mdCtxCopy, hd, hap, han, Option.map_some]
        rfl
      simp only [aoEvpCopy, hc]
      rfl
    · exact rel_effect (L := L) (fr := true) (d0 := { d with omac_ctx := none }) (a0 := { a with omac_ctx := none }) R
        (.inr ⟨by rw [hj]; rfl, rfl, rfl⟩) (.renew t rfl rfl ha) m.c m.seed m.tag hok

/-- One call. -/
theorem ao_step (X : Crypto) (rng : Nat → Fin 8 → W32) (cd : Asn1Codec) {s : AoMem (AoState n)} {v : AoVals n} {L : List Nat}
    (R : AoRel (aoOps X rng cd n).copyOk s v.ctx L) (hd : s.draws = v.draws) (o : AoCall) :
    StepSame (aoOps X rng cd n).copyOk L (aoLoses v o && (aoValStep X rng cd v o).isSome).toNat
      (aoMemStep (aoOps X rng cd n) s o) (aoValStep X rng cd v o) := by
  have hmac : (aoOps X rng cd n).macSize = n := by cases n <;> rfl
  have hz : ∀ {o : AoCall}, (∀ i k w e, o ≠ .init i k w e) → (∀ i j, o ≠ .copy i j) →
      (aoLoses v o && (aoValStep X rng cd v o).isSome).toNat = 0 := by
    intro o h1 h2
    have : aoLoses v o = false := by
      cases o <;> first | rfl | (exact absurd rfl (h1 _ _ _ _)) | (exact absurd rfl (h2 _ _))
    rw [this]; rfl
  cases o with
  | init i key iv enc =>
    have := init_same X rng cd R hd i key iv enc
    cases hv : aoValStep X rng cd v (.init i key iv enc) with
    | none =>
      rw [hv] at this
      cases hm : aoMemStep (aoOps X rng cd n) s (.init i key iv enc) with
      | none => trivial
      | some r => rw [hm] at this; exact this.elim
    | some r => rw [hv] at this; simp only [Option.isSome_some, Bool.and_true]; exact this
  | update i x =>
    rw [hz (by simp) (by simp)]
    exact on_same R hd i (update_same X rng cd n s.heap x)
  | final i =>
    rw [hz (by simp) (by simp)]
    exact on_same R hd i (final_same X rng cd n s.heap)
  | attr i b =>
    rw [hz (by simp) (by simp)]
    show StepSame _ _ _ (aoOn s i fun d => some (s.heap, { d with tag := (process_unprotected_dec (aoOps X rng cd n).macSize d.bare b).1.tag },
      (process_unprotected_dec (aoOps X rng cd n).macSize d.bare b).2, [])) _
    rw [hmac]
    exact on_same R hd i (attr_same n _ s.heap b)
  | unprot i =>
    rw [hz (by simp) (by simp)]
    show StepSame _ _ _ (aoOn s i fun d => some (s.heap, d, 1, process_unprotected_enc (aoOps X rng cd n).macSize d.bare)) _
    rw [hmac]
    exact on_same R hd i (unprot_same n _ s.heap)
  | getParams i p =>
    rw [hz (by simp) (by simp)]
    exact on_same R hd i (getParams_same X rng cd n s.heap p)
  | setParams i =>
    rw [hz (by simp) (by simp)]
    exact on_same R hd i (setParams_same X rng cd n s.heap)
  | mesh i m =>
    rw [hz (by simp) (by simp)]
    exact on_same R hd i (mesh_same X rng cd n s.heap m)
  | copy i j =>
    by_cases hij : i = j
    · simp only [aoMemStep, aoValStep, if_pos hij]; trivial
    have M := R.ctxs i
    have N := R.ctxs j
    have hlose : aoLoses v (.copy i j) = v.unkeyed i := rfl
    simp only [aoMemStep, aoValStep, if_neg hij, hlose, AoVals.unkeyed]
    rcases hx : s.ctx i with _ | _ | d <;> rcases hy : v.ctx i with _ | _ | a <;> rw [hx, hy] at M <;> try exact M.elim
    · trivial
    · rcases hxj : s.ctx j with _ | x <;> rcases hyj : v.ctx j with _ | y <;> rw [hxj, hyj] at N <;>
        first
        | exact N.elim
        | trivial
        | (rcases x with _ | x <;> exact N.elim)
        | exact ⟨rfl, hd, L, R, rfl⟩
    · obtain ⟨m, hok⟩ := M
      rcases hxj : s.ctx j with _ | x <;> rcases hyj : v.ctx j with _ | y
      · simp only [Option.isSome_none, Bool.and_false]; trivial
      · rw [hxj, hyj] at N; exact N.elim
      · rw [hxj, hyj] at N; rcases x with _ | x <;> exact N.elim
      · obtain ⟨h, hr, R1⟩ := ao_rel_free R j x hxj (some none) (some none) (.inr ⟨rfl, rfl⟩)
        have M1 := R1.ctxs i
        simp only [setCtx_other _ hij, hx, hy] at M1
        dsimp only
        rw [hr]
        simp only [Option.bind_some]
        rcases copy_rel (aoOps X rng cd n) rfl R1 j (by simp [setCtx]) d a M1.1 hok with ⟨ha, h', d', e1, e2⟩ | ⟨ha, h', L', e1, e2, e3⟩
        · rw [e1]
          simp only [ao_setCtx_twice] at e2 ⊢
          rw [ha]
          simp only [if_true]
          refine ⟨rfl, hd, L, e2, ?_⟩
          obtain ⟨t, ht⟩ := Option.isSome_iff_exists.1 ha
          rw [ht]; rfl
        · rw [e1]
          simp only [ao_setCtx_twice] at e2 ⊢
          rw [ha]
          simp only [Bool.false_eq_true, if_false]
          refine ⟨rfl, hd, L', e2, ?_⟩
          have : a.omac_ctx = none := by cases hh : a.omac_ctx with
            | none => rfl
            | some t => rw [hh] at ha; cases ha
          rw [this, e3]; rfl
  | reset i =>
    rw [hz (by simp) (by simp)]
    have M := R.ctxs i
    simp only [aoMemStep, aoValStep]
    rcases hx : s.ctx i with _ | x <;> rcases hy : v.ctx i with _ | y
    · trivial
    · rw [hx, hy] at M; exact M.elim
    · rw [hx, hy] at M; rcases x with _ | x <;> exact M.elim
    · obtain ⟨h, hr, R1⟩ := ao_rel_free R i x hx (some none) (some none) (.inr ⟨rfl, rfl⟩)
      simp only [hr, Option.map_some]
      exact ⟨rfl, hd, L, R1, rfl⟩
  | free i =>
    rw [hz (by simp) (by simp)]
    have M := R.ctxs i
    simp only [aoMemStep, aoValStep]
    rcases hx : s.ctx i with _ | x <;> rcases hy : v.ctx i with _ | y
    · trivial
    · rw [hx, hy] at M; exact M.elim
    · rw [hx, hy] at M; rcases x with _ | x <;> exact M.elim
    · obtain ⟨h, hr, R1⟩ := ao_rel_free R i x hx none none (.inl ⟨rfl, rfl⟩)
      simp only [hr, Option.map_some, ao_setCtx_twice]
      exact ⟨rfl, hd, L, R1, rfl⟩

/-! ## Histories -/

theorem aoRelStart (ok : AoState n → Bool) (draws : List Bytes) :
    AoRel ok (aoMemStart (σ := AoState n) draws) (aoValStart n draws).ctx [] where
  ctxs _ := trivial
  inj i j p h := by cases h
  live p := ⟨fun h => absurd rfl h, fun h => by rcases h with h | ⟨i, h⟩ <;> cases h⟩
  nodup := List.nodup_nil
  lost p h := by cases h
  bound p h := absurd rfl h

theorem ao_run (X : Crypto) (rng : Nat → Fin 8 → W32) (cd : Asn1Codec) (os : List AoCall) {s : AoMem (AoState n)} {v : AoVals n}
    {L : List Nat} (R : AoRel (aoOps X rng cd n).copyOk s v.ctx L) (hd : s.draws = v.draws) :
    (aoMemRun (aoOps X rng cd n) s os = none ∧ aoValRun X rng cd v os = none) ∨
    ∃ s' v' outs L', aoMemRun (aoOps X rng cd n) s os = some (s', outs) ∧ aoValRun X rng cd v os = some (v', outs) ∧
      AoRel (aoOps X rng cd n).copyOk s' v'.ctx L' ∧ L'.length = L.length + aoLosses X rng cd v os := by
  induction os generalizing s v L with
  | nil => exact .inr ⟨s, v, [], L, rfl, rfl, R, rfl⟩
  | cons o os ih =>
    have H := ao_step X rng cd R hd o
    simp only [aoMemRun, aoValRun, aoLosses]
    rcases hm : aoMemStep (aoOps X rng cd n) s o with _ | ⟨s1, r1⟩ <;> rcases hv : aoValStep X rng cd v o with _ | ⟨v1, r2⟩ <;>
      rw [hm, hv] at H <;> try exact H.elim
    · exact .inl ⟨rfl, rfl⟩
    · obtain ⟨hr, hd1, L1, R1, hl⟩ := H
      subst hr
      simp only [Option.isSome_some, Bool.and_true] at hl
      rcases ih R1 hd1 with ⟨h1, h2⟩ | ⟨s', v', outs, L', h1, h2, h3, h4⟩
      · exact .inl ⟨by simp only [Option.bind_some, h1]; rfl, by simp only [Option.bind_some, h2]; rfl⟩
      · refine .inr ⟨s', v', r1 :: outs, L', by simp only [Option.bind_some, h1]; rfl, by simp only [Option.bind_some, h2]; rfl, h3, ?_⟩
        dsimp only
        omega

/-- **C68.** For every history of initialisations, data, final calls, parameters, tags, controls, copies, resets and frees of any number of
contexts, the calls return and write what they do when every context is a value of its own: copies share nothing, no memory is used after it
was freed or freed twice.  The run is undefined exactly when it is on values: a freed context is used, a context is copied onto itself, or
data are given to a context without a key. -/
theorem C68_copies_independent (X : Crypto) (rng : Nat → Fin 8 → W32) (cd : Asn1Codec) (n : OmacCipher) (draws : List Bytes)
    (os : List AoCall) :
    (aoMemRun (aoOps X rng cd n) (aoMemStart draws) os).map (·.2) = (aoValRun X rng cd (aoValStart n draws) os).map (·.2) := by
  rcases ao_run X rng cd os (aoRelStart (aoOps X rng cd n).copyOk draws) rfl with ⟨h1, h2⟩ | ⟨s', v', outs, L', h1, h2, _⟩
  · rw [h1, h2]; rfl
  · rw [h1, h2]; rfl

/-- The context a call writes to. -/
def AoCall.target : AoCall → Nat
  | .init i _ _ _ | .update i _ | .final i | .attr i _ | .unprot i | .getParams i _ | .setParams i | .mesh i _ | .reset i | .free i => i
  | .copy _ j => j

theorem aoVal_other (X : Crypto) (rng : Nat → Fin 8 → W32) (cd : Asn1Codec) {v v' : AoVals n} {o : AoCall} {r : Int × Bytes}
    (h : aoValStep X rng cd v o = some (v', r)) (j : Nat) (hj : o.target ≠ j) : v'.ctx j = v.ctx j := by
  have hon : ∀ i f, i ≠ j → aoValOn v i f = some (v', r) → v'.ctx j = v.ctx j := by
    intro i f hi hf
    unfold aoValOn at hf
    rcases hx : v.ctx i with _ | _ | a <;> rw [hx] at hf
    · cases hf
    · cases hf; rfl
    · dsimp only at hf
      rcases hg : f a with _ | q <;> rw [hg] at hf
      · cases hf
      · cases hf
        exact setCtx_other _ (Ne.symm hi) _
  cases o with
  | init i key iv enc =>
    simp only [aoValStep] at h
    rcases hx : v.ctx i with _ | x <;> rw [hx] at h
    · cases h
    · cases h; exact setCtx_other _ (Ne.symm hj) _
  | update i x => exact hon i _ hj h
  | final i => exact hon i _ hj h
  | attr i b => exact hon i _ hj h
  | unprot i => exact hon i _ hj h
  | getParams i p => exact hon i _ hj h
  | setParams i => exact hon i _ hj h
  | mesh i m => exact hon i _ hj h
  | copy i k =>
    simp only [aoValStep] at h
    split at h
    · cases h
    · split at h
      · cases h; rfl
      · split at h
        · cases h; exact setCtx_other _ (Ne.symm hj) _
        · cases h; exact setCtx_other _ (Ne.symm hj) _
      · cases h
  | reset i =>
    simp only [aoValStep] at h
    rcases hx : v.ctx i with _ | x <;> rw [hx] at h
    · cases h
    · cases h; exact setCtx_other _ (Ne.symm hj) _
  | free i =>
    simp only [aoValStep] at h
    rcases hx : v.ctx i with _ | x <;> rw [hx] at h
    · cases h
    · cases h; exact setCtx_other _ (Ne.symm hj) _

theorem aoVal_others (X : Crypto) (rng : Nat → Fin 8 → W32) (cd : Asn1Codec) (os : List AoCall) {v v' : AoVals n} {outs : List (Int × Bytes)}
    (h : aoValRun X rng cd v os = some (v', outs)) (j : Nat) (hj : ∀ o, o ∈ os → o.target ≠ j) : v'.ctx j = v.ctx j := by
  induction os generalizing v outs with
  | nil => cases h; rfl
  | cons o os ih =>
    simp only [aoValRun] at h
    rcases hv : aoValStep X rng cd v o with _ | ⟨v1, r⟩ <;> rw [hv] at h
    · cases h
    · simp only [Option.bind_some] at h
      rcases hr : aoValRun X rng cd v1 os with _ | ⟨v2, outs2⟩ <;> rw [hr] at h
      · cases h
      · cases h
        rw [ih hr (fun o ho => hj o (List.mem_cons_of_mem _ ho)), aoVal_other X rng cd hv j (hj o List.mem_cons_self)]

/-- **C68.** A copy is a snapshot: once `EVP_CIPHER_CTX_copy` from `i` to `j` returned 1, whatever is then done with other contexts, the
original included — new keys, more data, reset, free — the first call on `j` behaves as it would have on `i` at the moment of the copy. -/
theorem C68_copy_is_snapshot (X : Crypto) (rng : Nat → Fin 8 → W32) (cd : Asn1Codec) {v v' : AoVals n} (i j : Nat) (os : List AoCall)
    (outs : List (Int × Bytes)) (h : aoValRun X rng cd v (.copy i j :: os) = some (v', (1, []) :: outs))
    (hj : ∀ o, o ∈ os → o.target ≠ j) : v'.ctx j = v.ctx i ∧ v.keyed i = true := by
  simp only [aoValRun] at h
  rcases hv : aoValStep X rng cd v (.copy i j) with _ | ⟨v1, r⟩ <;> rw [hv] at h
  · cases h
  · simp only [Option.bind_some] at h
    rcases hr : aoValRun X rng cd v1 os with _ | ⟨v2, outs2⟩ <;> rw [hr] at h
    · cases h
    · simp only [Option.map_some, Option.some.injEq, Prod.mk.injEq, List.cons.injEq] at h
      obtain ⟨rfl, rfl, rfl⟩ := h
      rw [aoVal_others X rng cd os hr j hj]
      simp only [aoValStep] at hv
      by_cases hij : i = j
      · rw [if_pos hij] at hv; cases hv
      rw [if_neg hij] at hv
      simp only [AoVals.keyed]
      rcases hx : v.ctx i with _ | _ | a <;> rcases hy : v.ctx j with _ | y <;> rw [hx, hy] at hv <;> dsimp only at hv
      · cases hv
      · cases hv
      · cases hv
      · cases hv
      · cases hv
      · by_cases ha : a.omac_ctx.isSome = true
        · rw [if_pos ha] at hv
          cases hv
          exact ⟨by simp [setCtx], ha⟩
        · rw [if_neg ha] at hv
          cases hv

/-- **C69.** What is left in memory after any history: besides the digest contexts owned by the contexts alive, exactly one for each call
that gave a key to a context that had one, or copied a context that had none. -/
theorem C69_leak_exact (X : Crypto) (rng : Nat → Fin 8 → W32) (cd : Asn1Codec) (n : OmacCipher) (draws : List Bytes) (os : List AoCall)
    (s : AoMem (AoState n)) (outs : List (Int × Bytes)) (h : aoMemRun (aoOps X rng cd n) (aoMemStart draws) os = some (s, outs)) :
    ∃ L : List Nat, L.Nodup ∧ L.length = aoLosses X rng cd (aoValStart n draws) os ∧
      (∀ p, s.heap.obj p ≠ none ↔ p ∈ L ∨ ∃ i d, s.ctx i = some (some d) ∧ d.omac_ctx = some p) ∧
      ∀ p, p ∈ L → ∀ i d, s.ctx i = some (some d) → d.omac_ctx ≠ some p := by
  have hptr : ∀ x : Option (Option (AoData (AoState n))), ∀ p, ptrOf x = some p ↔ ∃ d, x = some (some d) ∧ d.omac_ctx = some p := by
    intro x p
    rcases x with _ | _ | d
    · exact ⟨fun h => (by cases h), fun ⟨d, h, _⟩ => (by cases h)⟩
    · exact ⟨fun h => (by cases h), fun ⟨d, h, _⟩ => (by cases h)⟩
    · exact ⟨fun h => ⟨d, rfl, h⟩, fun ⟨e, h, h2⟩ => (by cases h; exact h2)⟩
  rcases ao_run X rng cd os (aoRelStart (aoOps X rng cd n).copyOk draws) rfl with ⟨h1, _⟩ | ⟨s', v', o', L, h1, _, R, hl⟩
  · rw [h1] at h; cases h
  · rw [h1] at h; cases h
    refine ⟨L, R.nodup, by simpa using hl, fun p => ?_, fun p hp i d hi hd => R.lost p hp i ((hptr _ p).2 ⟨d, hi, hd⟩)⟩
    rw [R.live]
    simp only [hptr]

/-- **C69.** Partial: every digest context is freed once all contexts are freed or reset — if no context was given a second key and no
context without a key was copied. -/
theorem C69_all_freed_partial (X : Crypto) (rng : Nat → Fin 8 → W32) (cd : Asn1Codec) (n : OmacCipher) (draws : List Bytes)
    (os : List AoCall) (s : AoMem (AoState n)) (outs : List (Int × Bytes))
    (h : aoMemRun (aoOps X rng cd n) (aoMemStart draws) os = some (s, outs)) (h0 : aoLosses X rng cd (aoValStart n draws) os = 0)
    (hi : ∀ i d, s.ctx i ≠ some (some d)) (p : Nat) : s.heap.obj p = none := by
  obtain ⟨L, _, hl, hlive, _⟩ := C69_leak_exact X rng cd n draws os s outs h
  rw [h0] at hl
  have : L = [] := List.length_eq_zero_iff.1 hl
  subst this
  refine Classical.byContradiction fun hp => ?_
  rcases (hlive p).1 hp with h1 | ⟨i, d, h1, _⟩
  · cases h1
  · exact hi i d h1

/-- **C69.** When at the end no context has a cipher (all were freed or reset), what stays allocated is exactly one digest context, with
the MAC key in it, for each losing call. -/
theorem C69_left_over (X : Crypto) (rng : Nat → Fin 8 → W32) (cd : Asn1Codec) (n : OmacCipher) (draws : List Bytes) (os : List AoCall)
    (v : AoVals n) (outs : List (Int × Bytes)) (h : aoValRun X rng cd (aoValStart n draws) os = some (v, outs))
    (hi : ∀ i a, v.ctx i ≠ some (some a)) :
    ∃ s, aoMemRun (aoOps X rng cd n) (aoMemStart draws) os = some (s, outs) ∧ (∀ i d, s.ctx i ≠ some (some d)) ∧
      ∃ L : List Nat, L.Nodup ∧ L.length = aoLosses X rng cd (aoValStart n draws) os ∧ ∀ p, s.heap.obj p ≠ none ↔ p ∈ L := by
  rcases ao_run X rng cd os (aoRelStart (aoOps X rng cd n).copyOk draws) rfl with ⟨_, h2⟩ | ⟨s', v', o', L, h1, h2, R, hl⟩
  · rw [h2] at h; cases h
  · rw [h2] at h; cases h
    have hs : ∀ i d, s'.ctx i ≠ some (some d) := by
      intro i d hd
      have M := R.ctxs i
      rw [hd] at M
      rcases hx : v.ctx i with _ | _ | a
      · rw [hx] at M; exact M
      · rw [hx] at M; exact M
      · exact hi i a hx
    refine ⟨s', h1, hs, L, R.nodup, by simpa using hl, fun p => ?_⟩
    rw [R.live]
    refine ⟨fun hp => ?_, .inl⟩
    rcases hp with hp | ⟨i, hp⟩
    · exact hp
    · rcases hx : s'.ctx i with _ | _ | d
      · rw [hx] at hp; cases hp
      · rw [hx] at hp; cases hp
      · exact absurd hx (hs i d)

/-- A key, a second key, free. -/
def rekeyHistory (k1 k2 : Bytes) : List AoCall := [.init 0 (some k1) none false, .init 0 (some k2) none false, .free 0]

/-- The first initialisation of a context with a key succeeds. -/
theorem first_key (X : Crypto) (rng : Nat → Fin 8 → W32) (n : OmacCipher) (k : Bytes) (hk : k.length = 32) (draws : List Bytes) :
    ∃ a, aoInit X rng n (aoFresh rng n) (some k) none false draws = (a, 1, draws) ∧ a.omac_ctx.isSome = true := by
  obtain ⟨a, h1, _, h3⟩ := init_start X rng n (aoFresh rng n) (fresh_unused rng n) k hk none (fun v h => (by cases h)) false draws
    (zeros 8) draws (by cases n <;> rfl) (by simp [zeros]) (fun h => (by cases h))
  refine ⟨a, h1, ?_⟩
  cases n with
  | magma => rw [h3.1]; rfl
  | kuznyechik => rw [h3.1]; rfl

/-- **C69.** Re-keying leaks: for both ciphers and any two keys, after the second key and the free of the context a digest context stays
allocated that nothing refers to. -/
theorem C69_rekey_leaks (X : Crypto) (rng : Nat → Fin 8 → W32) (cd : Asn1Codec) (n : OmacCipher) (k1 k2 : Bytes) (hk : k1.length = 32) :
    ∃ s outs, aoMemRun (aoOps X rng cd n) (aoMemStart []) (rekeyHistory k1 k2) = some (s, outs) ∧ (∀ i d, s.ctx i ≠ some (some d)) ∧
      ∃ p, s.heap.obj p ≠ none ∧ ∀ q, s.heap.obj q ≠ none → q = p := by
  obtain ⟨a, ha, hs⟩ := first_key X rng n k1 hk []
  have hv : ∃ v outs, aoValRun X rng cd (aoValStart n []) (rekeyHistory k1 k2) = some (v, outs) ∧ ∀ i b, v.ctx i ≠ some (some b) := by
    refine ⟨_, _, rfl, ?_⟩
    intro i b
    simp only [setCtx, aoValStart]
    split <;> simp
  have hl : aoLosses X rng cd (aoValStart n []) (rekeyHistory k1 k2) = 1 := by
    simp only [rekeyHistory, aoLosses, aoValStep, aoValStart, setCtx, if_true, Option.map_some, Option.getD_none, ha, aoLoses, AoVals.keyed,
      hs, Option.isSome_some, Bool.true_and]
    rfl
  obtain ⟨v, outs, h1, h2⟩ := hv
  obtain ⟨s, h3, h4, L, _, h6, h7⟩ := C69_left_over X rng cd n [] _ v outs h1 h2
  rw [hl] at h6
  obtain ⟨p, rfl⟩ := List.length_eq_one_iff.1 h6
  exact ⟨s, outs, h3, h4, p, (h7 p).2 (by simp), fun q hq => by simpa using (h7 q).1 hq⟩

/-- **C69.** So it is false that the memory of the contexts is freed with them. -/
theorem C69_all_freed_false : ¬ ∀ (X : Crypto) (rng : Nat → Fin 8 → W32) (cd : Asn1Codec) (n : OmacCipher) (draws : List Bytes)
    (os : List AoCall) (s : AoMem (AoState n)) (outs : List (Int × Bytes)),
    aoMemRun (aoOps X rng cd n) (aoMemStart draws) os = some (s, outs) → (∀ i d, s.ctx i ≠ some (some d)) → ∀ p, s.heap.obj p = none := by
  intro H
  obtain ⟨s, outs, h1, h2, p, h3, _⟩ := C69_rekey_leaks realCrypto (fun _ _ => 0) DerWit.codec .magma (zeros 32) (zeros 32) (by simp [zeros])
  exact h3 (H _ _ _ _ _ _ _ _ h1 h2 p)

/-- **C69.** A failed copy leaks: a context with a cipher but no key is copied (the copy reports 0), then both contexts are freed. -/
theorem C69_failed_copy_leaks (X : Crypto) (rng : Nat → Fin 8 → W32) (cd : Asn1Codec) (n : OmacCipher) :
    ∃ s outs, aoMemRun (aoOps X rng cd n) (aoMemStart []) [.init 0 none none false, .copy 0 1, .free 0, .free 1] = some (s, outs) ∧
      outs[1]? = some (0, []) ∧ (∀ i d, s.ctx i ≠ some (some d)) ∧ ∃ p, s.heap.obj p ≠ none := by
  obtain ⟨a, r, ha, hs⟩ : ∃ a r, aoInit X rng n (aoFresh rng n) none none false [] = (a, r, []) ∧ a.omac_ctx = none := by
    cases n with
    | magma => exact ⟨_, _, rfl, rfl⟩
    | kuznyechik => exact ⟨_, _, rfl, rfl⟩
  have hv : ∃ v, aoValRun X rng cd (aoValStart n []) [.init 0 none none false, .copy 0 1, .free 0, .free 1] =
      some (v, [(r, []), (0, []), (1, []), (1, [])]) ∧ ∀ i b, v.ctx i ≠ some (some b) := by
    refine ⟨⟨setCtx (setCtx (setCtx (setCtx (fun _ => some none) 0 (some (some a))) 1 (some none)) 0 none) 1 none, []⟩, ?_, ?_⟩
    · simp only [aoValRun, aoValStep, aoValStart, Option.map_some, Option.getD_none, ha, Option.bind_some, setCtx, if_true,
        Nat.zero_ne_one, if_false, hs, Option.isSome_none, Bool.false_eq_true, Nat.one_ne_zero]
    · intro i b
      by_cases hi0 : i = 0
      · subst hi0; simp [setCtx]
      · by_cases hi1 : i = 1
        · subst hi1; simp [setCtx]
        · simp [setCtx, hi0, hi1]
  have hl : aoLosses X rng cd (aoValStart n []) [.init 0 none none false, .copy 0 1, .free 0, .free 1] = 1 := by
    simp only [aoLosses, aoValStep, aoValStart, setCtx, if_true, Option.map_some, Option.getD_none, ha, aoLoses, AoVals.unkeyed,
      hs, Option.isNone_none, Option.isSome_none, Bool.false_and, Nat.zero_ne_one, if_false, Bool.false_eq_true, Nat.one_ne_zero]
    rfl
  obtain ⟨v, h1, h2⟩ := hv
  obtain ⟨s, h3, h4, L, _, h6, h7⟩ := C69_left_over X rng cd n [] _ v _ h1 h2
  rw [hl] at h6
  obtain ⟨p, rfl⟩ := List.length_eq_one_iff.1 h6
  exact ⟨s, _, h3, rfl, h4, p, (h7 p).2 (by simp)⟩

/-- **C69.** The hypotheses of `C69_all_freed_partial` are met: key, data, copy, more data on both, free of the original first. -/
theorem C69_respecting_history (X : Crypto) (rng : Nat → Fin 8 → W32) (cd : Asn1Codec) (n : OmacCipher) (k x y z : Bytes)
    (hk : k.length = 32) :
    let os : List AoCall := [.init 0 (some k) none false, .update 0 x, .copy 0 1, .update 0 y, .free 0, .update 1 z, .reset 1]
    aoLosses X rng cd (aoValStart n []) os = 0 ∧
      ∃ s outs, aoMemRun (aoOps X rng cd n) (aoMemStart []) os = some (s, outs) ∧ (∀ i d, s.ctx i ≠ some (some d)) ∧
        outs[2]? = some (1, []) := by
  obtain ⟨a, ha, hs⟩ := first_key X rng n k hk []
  have hup : ∀ (a : AoCtx (AoState n)) x, a.omac_ctx.isSome = true → ∃ a' o r, aoUpdate n a x = .ret a' o r ∧ a'.omac_ctx.isSome = true := by
    intro a x h
    obtain ⟨t, ht⟩ := Option.isSome_iff_exists.1 h
    cases n with
    | magma => exact ⟨_, _, _, by simp only [aoUpdate, magma_cipher_do_ctr_acpkm_omac, ht]; rfl, rfl⟩
    | kuznyechik => exact ⟨_, _, _, by simp only [aoUpdate, gost_grasshopper_cipher_do_ctracpkm_omac, ht]; rfl, rfl⟩
  obtain ⟨a1, o1, r1, h1, s1⟩ := hup a x hs
  obtain ⟨a2, o2, r2, h2, s2⟩ := hup a1 y s1
  obtain ⟨a3, o3, r3, h3, s3⟩ := hup a1 z s1
  intro os
  have hl : aoLosses X rng cd (aoValStart n []) os = 0 := by
    have e1 : a1.omac_ctx.isNone = false := by rw [← Option.not_isSome, s1]; rfl
    simp only [os, aoLosses, aoValStep, aoValOn, aoRet, aoValStart, setCtx, if_true, Option.map_some, Option.getD_none, ha, h1, h2, h3, s1,
      aoLoses, AoVals.unkeyed, AoVals.keyed, Nat.zero_ne_one, if_false, Nat.one_ne_zero, e1]
    rfl
  have hv : ∃ v, aoValRun X rng cd (aoValStart n []) os = some (v, [(1, []), (r1, o1), (1, []), (r2, o2), (1, []), (r3, o3), (1, [])]) ∧
      ∀ i b, v.ctx i ≠ some (some b) := by
    refine ⟨⟨setCtx (setCtx (setCtx (setCtx (setCtx (setCtx (setCtx (fun _ => some none) 0 (some (some a))) 0 (some (some a1))) 1
      (some (some a1))) 0 (some (some a2))) 0 none) 1 (some (some a3))) 1 (some none), []⟩, ?_, ?_⟩
    · simp only [os, aoValRun, aoValStep, aoValOn, aoRet, aoValStart, Option.map_some, Option.getD_none, ha, h1, h2, h3, s1, Option.bind_some,
        setCtx, if_true, Nat.zero_ne_one, if_false, Nat.one_ne_zero]
    · intro i b
      by_cases hi0 : i = 0
      · subst hi0; simp [setCtx]
      · by_cases hi1 : i = 1
        · subst hi1; simp [setCtx]
        · simp [setCtx, hi0, hi1]
  obtain ⟨v, e1, e2⟩ := hv
  obtain ⟨s, e3, e4, _⟩ := C69_left_over X rng cd n [] os v _ e1 e2
  exact ⟨hl, s, _, e3, e4, rfl⟩

end Gost
