import Verif.Model.DigestHeap
import Verif.Props.ProvDigest

/-!
# C86: digest contexts of an application

Any number of contexts, initialised for any of the hash functions, fed, finished, copied onto each other, reset, in any order, with allocations
failing at any point: every call returns what the specification says, no memory is touched that is not the context's, and nothing is left when the contexts
are reset.
-/

namespace Gost
open Spec

/-! ## Specification -/

/-- A context: new; in error (an allocation failed); finished; with a message so far. -/
inductive SpecMd where
  | none
  | broken (k : DigestKind)
  | done (k : DigestKind)
  | msg (k : DigestKind) (m : Bytes)
  deriving DecidableEq

/-- The hash function a context has memory for. -/
def SpecMd.held : SpecMd → Option DigestKind
  | .done k | .msg k _ => some k
  | _ => Option.none

def setSpec (s : Nat → SpecMd) (i : Nat) (x : SpecMd) : Nat → SpecMd := fun j => if j = i then x else s j

/-- The calls. `none`: a call outside the interface (data or the end of a message without a begin, the same hash function asked again of a context
in error, a context in error or the destination itself as source of a copy, a message of `2^60` bytes or more; the MAC). -/
def shStep (s : Nat → SpecMd) : DhOp → Option ((Nat → SpecMd) × MdRet)
  | .init i (.dig k) ok =>
    if s i = .broken k then Option.none
    else if (s i).held = some k ∨ ok = true then some (setSpec s i (.msg k []), ⟨1, []⟩)
    else some (setSpec s i (.broken k), ⟨0, []⟩)
  | .init _ .mac _ => Option.none
  | .update i d =>
    match s i with
    | .msg k m => some (setSpec s i (.msg k (m ++ d)), ⟨1, []⟩)
    | _ => Option.none
  | .final i =>
    match s i with
    | .msg k m => if m.length < 2 ^ 60 then some (setSpec s i (.done k), ⟨1, stdHash k m⟩) else Option.none
    | _ => Option.none
  | .copy dst src ok =>
    if dst = src then Option.none
    else
      match (s src).held with
      | some k =>
        if (s dst).held = some k ∨ ok = true then some (setSpec s dst (s src), ⟨1, []⟩)
        else some (setSpec s dst (.broken k), ⟨0, []⟩)
      | Option.none =>
        match s src with
        | .none => some (s, ⟨0, []⟩)
        | _ => Option.none
  | .reset i => some (setSpec s i .none, ⟨1, []⟩)

def shRun : (Nat → SpecMd) → List DhOp → Option ((Nat → SpecMd) × List MdRet)
  | s, [] => some (s, [])
  | s, o :: os =>
    match shStep s o with
    | Option.none => Option.none
    | some r => (shRun r.1 os).map fun t => (t.1, r.2 :: t.2)

/-! ## The invariant -/

/-- The data at `p` are for the hash function `k`. -/
def OfKind : DigestKind → MdBlock → Prop
  | .gost94, .g94 _ _ => True
  | .sb256, .sb _ => True
  | .sb512, .sb _ => True
  | _, _ => False

/-- The data at `p` hold the message `m`; a pointer to a cipher context points to their own. -/
def HoldsMsg (p : Nat) : DigestKind → Bytes → MdBlock → Prop
  | .gost94, m, .g94 c q => MdInv .gost94 m (.g94 c) ∧ q = some p
  | .sb256, m, .sb c => MdInv .sb256 m (.sb c)
  | .sb512, m, .sb c => MdInv .sb512 m (.sb c)
  | _, _, _ => False

theorem HoldsMsg.kind {p : Nat} {k : DigestKind} {m : Bytes} {b : MdBlock} (h : HoldsMsg p k m b) : OfKind k b := by
  cases k <;> cases b <;> first | exact h.elim | trivial

/-- A context and its specification. -/
def CtxRel (h : Heap MdBlock) (e : EvpMd) : SpecMd → Prop
  | .none => e = .empty
  | .broken k => e.digest = some (.dig k) ∧ e.md = Option.none
  | .done k => ∃ p b, e = ⟨some (.dig k), some p, true⟩ ∧ h.obj p = some b ∧ OfKind k b
  | .msg k m => ∃ p b, e = ⟨some (.dig k), some p, false⟩ ∧ h.obj p = some b ∧ HoldsMsg p k m b

structure MemRel (m : MdMem) (s : Nat → SpecMd) : Prop where
  ctx : ∀ i, CtxRel m.h (m.ctx i) (s i)
  own : ∀ i j p, (m.ctx i).md = some p → (m.ctx j).md = some p → i = j
  all : ∀ p, m.h.obj p ≠ Option.none → ∃ i, (m.ctx i).md = some p
  fresh : ∀ p, m.h.next ≤ p → m.h.obj p = Option.none

theorem rel_start : MemRel .start fun _ => .none :=
  ⟨fun _ => rfl, (fun _ _ _ h => by cases h), fun _ h => absurd rfl h, fun _ _ => rfl⟩

theorem CtxRel.md_obj {h : Heap MdBlock} {e : EvpMd} {x : SpecMd} (hr : CtxRel h e x) {p : Nat} (hp : e.md = some p) : ∃ b, h.obj p = some b := by
  cases x with
  | none => rw [hr] at hp; cases hp
  | broken k => rw [hr.2] at hp; cases hp
  | done k =>
    obtain ⟨q, b, rfl, hb, -⟩ := hr
    cases hp; exact ⟨b, hb⟩
  | msg k m =>
    obtain ⟨q, b, rfl, hb, -⟩ := hr
    cases hp; exact ⟨b, hb⟩

theorem CtxRel.frame {h h' : Heap MdBlock} {e : EvpMd} {x : SpecMd} (hr : CtxRel h e x) (hf : ∀ p, e.md = some p → h'.obj p = h.obj p) : CtxRel h' e x := by
  cases x with
  | none => exact hr
  | broken k => exact hr
  | done k =>
    obtain ⟨q, b, rfl, hb, ho⟩ := hr
    exact ⟨q, b, rfl, by rw [hf q rfl, hb], ho⟩
  | msg k m =>
    obtain ⟨q, b, rfl, hb, ho⟩ := hr
    exact ⟨q, b, rfl, by rw [hf q rfl, hb], ho⟩

/-- A call on the context `i` that changes nothing but the data of `i` and new memory. -/
theorem memrel_set {m : MdMem} {s : Nat → SpecMd} (hR : MemRel m s) (i : Nat) (h' : Heap MdBlock) (e' : EvpMd) (x : SpecMd)
    (hx : CtxRel h' e' x) (hframe : ∀ p, (m.ctx i).md ≠ some p → p < m.h.next → h'.obj p = m.h.obj p)
    (hmd : ∀ p, e'.md = some p → (m.ctx i).md = some p ∨ m.h.next ≤ p)
    (hall : ∀ p, ((m.ctx i).md = some p ∨ m.h.next ≤ p) → h'.obj p ≠ Option.none → e'.md = some p)
    (hfresh : ∀ p, h'.next ≤ p → h'.obj p = Option.none) : MemRel (m.set h' i e') (setSpec s i x) := by
  have hlt : ∀ j p, (m.ctx j).md = some p → p < m.h.next := by
    intro j p hp
    obtain ⟨b, hb⟩ := (hR.ctx j).md_obj hp
    apply Classical.byContradiction
    intro hge
    rw [hR.fresh p (by omega)] at hb
    cases hb
  have hother : ∀ j p, j ≠ i → (m.ctx j).md = some p → (m.ctx i).md ≠ some p := fun j p hj hp hc => hj (hR.own j i p hp hc)
  refine ⟨fun j => ?_, fun j k p hj hk => ?_, fun p hp => ?_, hfresh⟩
  · by_cases hj : j = i
    · subst hj
      simpa only [MdMem.set, setSpec, if_true] using hx
    · simp only [MdMem.set, setSpec, if_neg hj]
      exact (hR.ctx j).frame fun p hp => hframe p (hother j p hj hp) (hlt j p hp)
  · simp only [MdMem.set] at hj hk
    by_cases h1 : j = i
    · by_cases h2 : k = i
      · rw [h1, h2]
      · rw [if_pos h1] at hj
        rw [if_neg h2] at hk
        rcases hmd p hj with h | h
        · exact absurd h (hother k p h2 hk)
        · have := hlt k p hk; omega
    · by_cases h2 : k = i
      · rw [if_neg h1] at hj
        rw [if_pos h2] at hk
        rcases hmd p hk with h | h
        · exact absurd h (hother j p h1 hj)
        · have := hlt j p hj; omega
      · rw [if_neg h1] at hj
        rw [if_neg h2] at hk
        exact hR.own j k p hj hk
  · have hp : h'.obj p ≠ Option.none := hp
    by_cases hc : (m.ctx i).md = some p ∨ m.h.next ≤ p
    · exact ⟨i, by simp only [MdMem.set, if_true]; exact hall p hc hp⟩
    · have h1 : (m.ctx i).md ≠ some p := fun h => hc (Or.inl h)
      have h2 : p < m.h.next := by
        apply Classical.byContradiction
        intro h; exact hc (Or.inr (by omega))
      rw [hframe p h1 h2] at hp
      obtain ⟨j, hj⟩ := hR.all p hp
      have hji : j ≠ i := fun h => h1 (h ▸ hj)
      exact ⟨j, by simp only [MdMem.set, if_neg hji]; exact hj⟩

theorem write_obj (h : Heap MdBlock) (p q : Nat) (b : MdBlock) : (h.write p b).obj q = if q = p then some b else h.obj q := rfl
theorem write_next (h : Heap MdBlock) (p : Nat) (b : MdBlock) : (h.write p b).next = h.next := rfl
theorem alloc_obj (h : Heap MdBlock) (q : Nat) (b : MdBlock) : (h.alloc b).1.obj q = if q = h.next then some b else h.obj q := rfl

theorem zero_kind (rng : Nat → Fin 8 → W32) (k : DigestKind) : OfKind k (zeroBlock rng (.dig k)) := by
  cases k <;> trivial

/-- The init methods on data of their kind. -/
theorem mdInit_ok {h : Heap MdBlock} {p : Nat} {b : MdBlock} {k : DigestKind} (hb : h.obj p = some b) (hk : OfKind k b) :
    ∃ b', mdInit h p (.dig k) = some (h.write p b') ∧ HoldsMsg p k [] b' := by
  cases k <;> cases b <;> first | exact hk.elim | skip
  · rename_i c q
    exact ⟨.g94 (gost94_digest_init c.cctx) (some p), by unfold mdInit; rw [hb], mdInv_init (fun _ _ => 0) (some (.g94 c)) .gost94, rfl⟩
  · rename_i c
    exact ⟨.sb (init_gost2012_hash_ctx 256), by unfold mdInit; rw [hb], mdInv_init (fun _ _ => 0) Option.none .sb256⟩
  · rename_i c
    exact ⟨.sb (init_gost2012_hash_ctx 512), by unfold mdInit; rw [hb], mdInv_init (fun _ _ => 0) Option.none .sb512⟩

theorem mdUpdate_ok (bd : SbBuild) {h : Heap MdBlock} {p : Nat} {b : MdBlock} {k : DigestKind} {m : Bytes} (d : Bytes) (hb : h.obj p = some b)
    (hk : HoldsMsg p k m b) : ∃ b', mdUpdate bd h p d = some (h.write p b', 1) ∧ HoldsMsg p k (m ++ d) b' := by
  cases k <;> cases b <;> first | exact hk.elim | skip
  · rename_i c q
    obtain ⟨h1, rfl⟩ := hk
    refine ⟨.g94 (hash_block c d) (some p), ?_, mdInv_update bd .gost94 m d (.g94 c) h1, rfl⟩
    unfold mdUpdate
    rw [hb]
    simp only [hb, put94, if_true]
  · rename_i c
    exact ⟨.sb (gost2012_hash_block bd c d), by unfold mdUpdate; rw [hb], mdInv_update bd .sb256 m d (.sb c) hk⟩
  · rename_i c
    exact ⟨.sb (gost2012_hash_block bd c d), by unfold mdUpdate; rw [hb], mdInv_update bd .sb512 m d (.sb c) hk⟩

theorem mdFinal_ok (bd : SbBuild) {h : Heap MdBlock} {p : Nat} {b : MdBlock} {k : DigestKind} {m : Bytes} (hb : h.obj p = some b)
    (hk : HoldsMsg p k m b) (hl : m.length < 2 ^ 60) : ∃ b', mdFinal bd h p = some (h.write p b', 1, stdHash k m) := by
  have hw : ∀ b', h.obj p = some b' → h = h.write p b' := by
    intro b' hb'
    unfold Heap.write
    have : (fun q => if q = p then some b' else h.obj q) = h.obj := by
      funext q
      split
      · rename_i hq; rw [hq, hb']
      · rfl
    rw [this]
  cases k <;> cases b <;> first | exact hk.elim | skip
  · rename_i c q
    obtain ⟨h1, rfl⟩ := hk
    refine ⟨.g94 (finish_hash c).1 (some p), ?_⟩
    have := mdInv_final bd .gost94 m (.g94 c) h1 hl
    unfold mdFinal
    rw [hb]
    simp only [hb, put94, if_true]
    rw [← this]
    rfl
  · rename_i c
    have := mdInv_final bd .sb256 m (.sb c) hk hl
    refine ⟨.sb c, ?_⟩
    unfold mdFinal
    rw [hb, ← this, ← hw _ hb]
    rfl
  · rename_i c
    have := mdInv_final bd .sb512 m (.sb c) hk hl
    refine ⟨.sb c, ?_⟩
    unfold mdFinal
    rw [hb, ← this, ← hw _ hb]
    rfl

/-- The clean-up of OpenSSL succeeds on every context and touches nothing but its data. -/
theorem cleanup_ok (rng : Nat → Fin 8 → W32) {h : Heap MdBlock} {e : EvpMd} {x : SpecMd} (hr : CtxRel h e x) (c : Bool) (hc : c = e.cleaned ∨ c = false) (keep : Bool) :
    ∃ h', cleanupOld rng h { e with cleaned := c } keep = some h' ∧ h'.next = h.next ∧ (∀ p, e.md ≠ some p → h'.obj p = h.obj p) ∧
      (keep = false → ∀ p, e.md = some p → h'.obj p = Option.none) ∧
      (keep = true → ∀ p k, e.md = some p → x.held = some k → ∃ b, h'.obj p = some b ∧ OfKind k b) := by
  have main : ∀ k p b c, h.obj p = some b → OfKind k b → ∃ h', cleanupOld rng h ⟨some (.dig k), some p, c⟩ keep = some h' ∧ h'.next = h.next ∧
      (∀ q, some p ≠ some q → h'.obj q = h.obj q) ∧ (keep = false → ∀ q, some p = some q → h'.obj q = Option.none) ∧
      (keep = true → ∃ b, h'.obj p = some b ∧ OfKind k b) := by
    intro k p b c hb hk
    have step : ∃ h1 b1, (if c then some h else mdCleanup rng h (some p) (.dig k)) = some h1 ∧ h1.next = h.next ∧ (∀ q, q ≠ p → h1.obj q = h.obj q) ∧
        h1.obj p = some b1 ∧ OfKind k b1 := by
      cases c
      · refine ⟨h.write p (zeroBlock rng (.dig k)), _, ?_, rfl, fun q hq => if_neg hq, if_pos rfl, zero_kind rng k⟩
        show mdCleanup rng h (some p) (.dig k) = _
        unfold mdCleanup
        simp only [hb, Option.map_some]
      · exact ⟨h, b, rfl, rfl, fun _ _ => rfl, hb, hk⟩
    obtain ⟨h1, b1, e1, e2, e3, e4, e5⟩ := step
    cases keep
    · refine ⟨{ h1 with obj := fun q => if q = p then Option.none else h1.obj q }, ?_, e2, ?_, ?_, (fun h => by cases h)⟩
      · unfold cleanupOld
        simp only [e1]
        show h1.free (some p) = _
        unfold Heap.free
        simp only [e4, Option.map_some]
      · intro q hq
        have hqp : q ≠ p := fun h => hq (by rw [h])
        show (if q = p then Option.none else h1.obj q) = _
        rw [if_neg hqp, e3 q hqp]
      · intro _ q hq
        cases hq
        exact if_pos rfl
    · refine ⟨h1, ?_, e2, fun q hq => e3 q (fun h => hq (by rw [h])), (fun h => (by cases h)), fun _ => ⟨b1, e4, e5⟩⟩
      unfold cleanupOld
      simp only [e1, if_true]
  cases x with
  | none =>
    rw [hr]
    exact ⟨h, rfl, rfl, fun _ _ => rfl, (fun _ p hp => by cases hp), (fun _ p k hp => by cases hp)⟩
  | broken k =>
    obtain ⟨dg, md, cl⟩ := e
    obtain ⟨h1, h2⟩ := hr
    simp only at h1 h2
    subst h1 h2
    refine ⟨h, ?_, rfl, fun _ _ => rfl, (fun _ p hp => by cases hp), (fun _ p k hp => by cases hp)⟩
    unfold cleanupOld
    cases c <;> cases keep <;> rfl
  | done k =>
    obtain ⟨p, b, rfl, hb, hk⟩ := hr
    obtain ⟨h', g1, g2, g3, g4, g5⟩ := main k p b c hb hk
    refine ⟨h', g1, g2, g3, g4, fun hk' q k' hq hh => ?_⟩
    cases hq; cases hh
    exact g5 hk'
  | msg k m =>
    obtain ⟨p, b, rfl, hb, hk⟩ := hr
    obtain ⟨h', g1, g2, g3, g4, g5⟩ := main k p b c hb hk.kind
    refine ⟨h', g1, g2, g3, g4, fun hk' q k' hq hh => ?_⟩
    cases hq; cases hh
    exact g5 hk'

/-- What a context holds. -/
theorem held_ctx {h : Heap MdBlock} {e : EvpMd} {x : SpecMd} (hr : CtxRel h e x) {k : DigestKind} (hk : x.held = some k) :
    ∃ p b c, e = ⟨some (.dig k), some p, c⟩ ∧ h.obj p = some b ∧ OfKind k b := by
  cases x with
  | none => cases hk
  | broken k' => cases hk
  | done k' =>
    cases hk
    obtain ⟨p, b, he, hb, ho⟩ := hr
    exact ⟨p, b, true, he, hb, ho⟩
  | msg k' m =>
    cases hk
    obtain ⟨p, b, he, hb, ho⟩ := hr
    exact ⟨p, b, false, he, hb, ho.kind⟩

theorem digest_iff {h : Heap MdBlock} {e : EvpMd} {x : SpecMd} (hr : CtxRel h e x) (k : DigestKind) (hx : x ≠ .broken k) :
    e.digest = some (.dig k) ↔ x.held = some k := by
  cases x with
  | none => rw [hr]; exact ⟨(fun h => by cases h), (fun h => by cases h)⟩
  | broken k' =>
    rw [hr.1]
    refine ⟨fun h => ?_, (fun h => by cases h)⟩
    cases h
    exact absurd rfl hx
  | done k' =>
    obtain ⟨p, b, rfl, -⟩ := hr
    constructor <;> intro h <;> cases h <;> rfl
  | msg k' m =>
    obtain ⟨p, b, rfl, -⟩ := hr
    constructor <;> intro h <;> cases h <;> rfl

/-- The copy of data at another place. -/
theorem mdCopy_eq (h : Heap MdBlock) (p : Nat) (b : MdBlock) : ∃ b', mdCopy h p b = h.write p b' ∧ (∀ k, OfKind k b → OfKind k b') ∧
    ∀ q k m, HoldsMsg q k m b → HoldsMsg p k m b' := by
  cases b with
  | g94 c q =>
    refine ⟨_, rfl, fun k hk => ?_, fun q' k m hh => ?_⟩
    · cases k <;> first | exact hk.elim | trivial
    · cases k <;> first | exact hh.elim | exact ⟨hh.1, rfl⟩
  | sb c =>
    refine ⟨_, rfl, fun k hk => hk, fun q' k m hh => ?_⟩
    cases k <;> first | exact hh.elim | exact hh
  | mac c =>
    refine ⟨_, rfl, fun k hk => hk, fun q' k m hh => ?_⟩
    cases k <;> exact hh.elim

/-- A copy has what its source has. -/
theorem copied_rel {h h' : Heap MdBlock} {e : EvpMd} {x : SpecMd} (hr : CtxRel h e x) {k : DigestKind} (hk : x.held = some k) {q p : Nat} {b b' : MdBlock}
    (he : e.md = some q) (hb : h.obj q = some b) (hb' : h'.obj p = some b') (h1 : ∀ k, OfKind k b → OfKind k b') (h2 : ∀ q k m, HoldsMsg q k m b → HoldsMsg p k m b') :
    CtxRel h' { e with md := some p } x := by
  cases x with
  | none => cases hk
  | broken k' => cases hk
  | done k' =>
    obtain ⟨q', b0, rfl, hb0, ho⟩ := hr
    cases he
    rw [hb] at hb0
    cases hb0
    exact ⟨p, b', rfl, hb', h1 _ ho⟩
  | msg k' m =>
    obtain ⟨q', b0, rfl, hb0, ho⟩ := hr
    cases he
    rw [hb] at hb0
    cases hb0
    exact ⟨p, b', rfl, hb', h2 _ _ _ ho⟩

theorem rel_lt {m : MdMem} {s : Nat → SpecMd} (hR : MemRel m s) {j p : Nat} (hp : (m.ctx j).md = some p) : p < m.h.next := by
  obtain ⟨b, hb⟩ := (hR.ctx j).md_obj hp
  apply Classical.byContradiction
  intro hge
  rw [hR.fresh p (by omega)] at hb
  cases hb

theorem dhStep_refines (rng : Nat → Fin 8 → W32) (b : SbBuild) (m : MdMem) (s s' : Nat → SpecMd) (hR : MemRel m s) (o : DhOp) (out : MdRet)
    (hs : shStep s o = some (s', out)) : ∃ m', dhStep rng b m o = some (m', out) ∧ MemRel m' s' := by
  cases o with
  | reset i =>
    cases hs
    obtain ⟨h', g1, g2, g3, g4, -⟩ := cleanup_ok rng (hR.ctx i) (m.ctx i).cleaned (Or.inl rfl) false
    refine ⟨m.set h' i .empty, ?_, memrel_set hR i h' .empty .none rfl (fun p hp _ => g3 p hp) (fun p hp => by cases hp) ?_ ?_⟩
    · unfold dhStep
      simp only
      rw [show cleanupOld rng m.h (m.ctx i) false = some h' from g1]
      rfl
    · intro p hp hne
      exfalso
      rcases hp with hp | hp
      · exact hne (g4 rfl p hp)
      · by_cases hc : (m.ctx i).md = some p
        · exact hne (g4 rfl p hc)
        · exact hne (by rw [g3 p hc]; exact hR.fresh p hp)
    · intro p hp
      rw [g2] at hp
      by_cases hc : (m.ctx i).md = some p
      · exact g4 rfl p hc
      · rw [g3 p hc]; exact hR.fresh p hp
  | update i d =>
    simp only [shStep] at hs
    cases hx : s i with
    | none => rw [hx] at hs; cases hs
    | broken k => rw [hx] at hs; cases hs
    | done k => rw [hx] at hs; cases hs
    | msg k msg =>
      rw [hx] at hs
      cases hs
      have hc := hR.ctx i
      rw [hx] at hc
      obtain ⟨p, blk, he, hb, hh⟩ := hc
      have hpn : p < m.h.next := rel_lt hR (j := i) (by rw [he])
      by_cases hd : d = []
      · subst hd
        refine ⟨m, by rw [dhStep, if_pos rfl], ?_⟩
        have : setSpec s i (.msg k (msg ++ [])) = s := by
          funext j
          unfold setSpec
          split
          · rename_i hj; rw [hj, hx, List.append_nil]
          · rfl
        rw [this]
        exact hR
      · obtain ⟨b', e1, e2⟩ := mdUpdate_ok b d hb hh
        refine ⟨m.set (m.h.write p b') i (m.ctx i), ?_, memrel_set hR i _ _ _ ⟨p, b', he, if_pos rfl, e2⟩ ?_ ?_ ?_ ?_⟩
        · unfold dhStep
          simp only
          rw [if_neg hd, he]
          simp only [e1, Option.map_some]
        · intro q hq _
          rw [write_obj, if_neg]
          rintro rfl
          exact hq (by rw [he])
        · intro q hq; exact Or.inl hq
        · intro q hq hne
          rcases hq with hq | hq
          · exact hq
          · exfalso
            apply hne
            rw [write_obj, if_neg (by omega)]
            exact hR.fresh q hq
        · intro q hq
          rw [write_next] at hq
          rw [write_obj, if_neg (by omega)]
          exact hR.fresh q hq
  | final i =>
    simp only [shStep] at hs
    cases hx : s i with
    | none => rw [hx] at hs; cases hs
    | broken k => rw [hx] at hs; cases hs
    | done k => rw [hx] at hs; cases hs
    | msg k msg =>
      rw [hx] at hs
      simp only at hs
      by_cases hl : msg.length < 2 ^ 60
      · rw [if_pos hl] at hs
        cases hs
        have hc := hR.ctx i
        rw [hx] at hc
        obtain ⟨p, blk, he, hb, hh⟩ := hc
        have hpn : p < m.h.next := rel_lt hR (j := i) (by rw [he])
        obtain ⟨b', e1⟩ := mdFinal_ok b hb hh hl
        refine ⟨m.set ((m.h.write p b').write p (zeroBlock rng (.dig k))) i ⟨some (.dig k), some p, true⟩, ?_,
          memrel_set hR i _ _ _ ⟨p, _, rfl, if_pos rfl, zero_kind rng k⟩ ?_ ?_ ?_ ?_⟩
        · unfold dhStep
          simp only
          rw [he]
          simp only [e1, mdCleanup, write_obj, if_true, Option.map_some]
        · intro q hq _
          have : q ≠ p := by rintro rfl; exact hq (by rw [he])
          rw [write_obj, if_neg this, write_obj, if_neg this]
        · intro q hq
          exact Or.inl (by rw [he]; exact hq)
        · intro q hq hne
          rcases hq with hq | hq
          · rw [he] at hq; exact hq
          · exfalso
            apply hne
            rw [write_obj, if_neg (by omega), write_obj, if_neg (by omega)]
            exact hR.fresh q hq
        · intro q hq
          simp only [write_next] at hq
          rw [write_obj, if_neg (by omega), write_obj, if_neg (by omega)]
          exact hR.fresh q hq
      · rw [if_neg hl] at hs; cases hs
  | init i kk ok =>
    cases kk with
    | mac => cases hs
    | dig k =>
      simp only [shStep] at hs
      by_cases hbr : s i = .broken k
      · rw [if_pos hbr] at hs; cases hs
      rw [if_neg hbr] at hs
      have hdg := digest_iff (hR.ctx i) k hbr
      by_cases hheld : (s i).held = some k
      · rw [if_pos (Or.inl hheld)] at hs
        cases hs
        obtain ⟨p, blk, c, he, hb, ho⟩ := held_ctx (hR.ctx i) hheld
        have hpn : p < m.h.next := rel_lt hR (j := i) (by rw [he])
        obtain ⟨b', e1, e2⟩ := mdInit_ok hb ho
        refine ⟨m.set (m.h.write p b') i ⟨some (.dig k), some p, false⟩, ?_, memrel_set hR i _ _ _ ⟨p, b', rfl, if_pos rfl, e2⟩ ?_ ?_ ?_ ?_⟩
        · unfold dhStep initAt
          simp only
          simp only [he, if_true, e1, Option.map_some]
        · intro q hq _
          rw [write_obj, if_neg]
          rintro rfl
          exact hq (by rw [he])
        · intro q hq; exact Or.inl (by rw [he]; exact hq)
        · intro q hq hne
          rcases hq with hq | hq
          · rw [he] at hq; exact hq
          · exfalso
            apply hne
            rw [write_obj, if_neg (by omega)]
            exact hR.fresh q hq
        · intro q hq
          rw [write_next] at hq
          rw [write_obj, if_neg (by omega)]
          exact hR.fresh q hq
      · have hnd : ¬ (m.ctx i).digest = some (.dig k) := fun h => hheld (hdg.1 h)
        obtain ⟨h', g1, g2, g3, g4, -⟩ := cleanup_ok rng (hR.ctx i) false (Or.inr rfl) false
        have gone : ∀ q, m.h.next ≤ q → h'.obj q = Option.none := by
          intro q hq
          by_cases hc : (m.ctx i).md = some q
          · exact g4 rfl q hc
          · rw [g3 q hc]; exact hR.fresh q hq
        cases ok with
        | false =>
          rw [if_neg (by rintro (h | h); exact hheld h; cases h)] at hs
          cases hs
          refine ⟨m.set h' i ⟨some (.dig k), Option.none, false⟩, ?_, memrel_set hR i _ _ _ ⟨rfl, rfl⟩ (fun p hp _ => g3 p hp) (fun p hp => by cases hp) ?_ ?_⟩
          · unfold dhStep
            simp only
            rw [if_neg hnd, g1]
            rfl
          · intro q hq hne
            exfalso
            rcases hq with hq | hq
            · exact hne (g4 rfl q hq)
            · exact hne (gone q hq)
          · intro q hq
            exact gone q (by omega)
        | true =>
          rw [if_pos (Or.inr rfl)] at hs
          cases hs
          have hz : (h'.alloc (zeroBlock rng (.dig k))).1.obj h'.next = some (zeroBlock rng (.dig k)) := if_pos rfl
          obtain ⟨b', e1, e2⟩ := mdInit_ok hz (zero_kind rng k)
          refine ⟨m.set ((h'.alloc (zeroBlock rng (.dig k))).1.write h'.next b') i ⟨some (.dig k), some h'.next, false⟩, ?_,
            memrel_set hR i _ _ _ ⟨h'.next, b', rfl, if_pos rfl, e2⟩ ?_ ?_ ?_ ?_⟩
          · unfold dhStep
            simp only
            rw [if_neg hnd, g1]
            simp only [if_true]
            unfold initAt
            have : (h'.alloc (zeroBlock rng (.dig k))).2 = h'.next := rfl
            rw [this, e1]
            rfl
          · intro q hq hlt
            rw [write_obj, if_neg (by omega), alloc_obj, if_neg (by omega), g3 q hq]
          · intro q hq
            cases hq
            exact Or.inr (by omega)
          · intro q hq hne
            by_cases hqn : q = h'.next
            · rw [hqn]
            · exfalso
              apply hne
              rw [write_obj, if_neg hqn, alloc_obj, if_neg hqn]
              rcases hq with hq | hq
              · exact g4 rfl q hq
              · exact gone q hq
          · intro q hq
            have hq : h'.next + 1 ≤ q := hq
            rw [write_obj, if_neg (by omega), alloc_obj, if_neg (by omega)]
            exact gone q (by omega)
  | copy dst src ok =>
    simp only [shStep] at hs
    by_cases hds : dst = src
    · rw [if_pos hds] at hs; cases hs
    rw [if_neg hds] at hs
    cases hk : (s src).held with
    | none =>
      rw [hk] at hs
      cases hx : s src with
      | none =>
        rw [hx] at hs
        cases hs
        have hc := hR.ctx src
        rw [hx] at hc
        have hc : m.ctx src = .empty := hc
        refine ⟨m, ?_, hR⟩
        unfold dhStep
        simp only
        rw [hc]
        rfl
      | broken k => rw [hx] at hs; cases hs
      | done k => rw [hx] at hs; cases hs
      | msg k msg => rw [hx] at hs; cases hs
    | some k =>
      rw [hk] at hs
      simp only at hs
      obtain ⟨q, blk, c, he, hb, ho⟩ := held_ctx (hR.ctx src) hk
      have hqn : q < m.h.next := rel_lt hR (j := src) (by rw [he])
      have hsm : (m.ctx src).md = some q := by rw [he]
      have hne : (m.ctx dst).md ≠ some q := fun h => hds (hR.own dst src q h hsm)
      have hsd : (m.ctx src).digest = some (.dig k) := by rw [he]
      have hsrc := hR.ctx src
      -- with new memory
      have fresh : ∀ keep, (keep = true → (m.ctx dst).md = Option.none) → ∀ h', cleanupOld rng m.h (m.ctx dst) keep = some h' → h'.next = m.h.next →
          (∀ p, (m.ctx dst).md ≠ some p → h'.obj p = m.h.obj p) → (keep = false → ∀ p, (m.ctx dst).md = some p → h'.obj p = Option.none) →
          ∀ s' out, (if ok = true then some (setSpec s dst (s src), (⟨1, []⟩ : MdRet)) else some (setSpec s dst (.broken k), ⟨0, []⟩)) = some (s', out) →
          ∃ m', copyInto m h' dst (m.ctx src) Option.none ok = some (m', out) ∧ MemRel m' s' := by
        intro keep hkeep h' g1 g2 g3 g4 s' out hs
        have gdst : ∀ p, (m.ctx dst).md = some p → h'.obj p = Option.none := by
          intro p hp
          cases keep with
          | false => exact g4 rfl p hp
          | true => rw [hkeep rfl] at hp; cases hp
        have gone : ∀ p, m.h.next ≤ p → h'.obj p = Option.none := by
          intro p hp
          by_cases hc : (m.ctx dst).md = some p
          · exact gdst p hc
          · rw [g3 p hc]; exact hR.fresh p hp
        have hb' : h'.obj q = some blk := by rw [g3 q hne, hb]
        cases ok with
        | false =>
          simp only [Bool.false_eq_true, if_false, Option.some.injEq, Prod.mk.injEq] at hs
          obtain ⟨rfl, rfl⟩ := hs
          refine ⟨m.set h' dst { m.ctx src with md := Option.none }, ?_, memrel_set hR dst _ _ _ ⟨hsd, rfl⟩ (fun p hp _ => g3 p hp) (fun p hp => by cases hp) ?_ ?_⟩
          · unfold copyInto
            rw [hsm]
            simp only [hb', Bool.false_eq_true, if_false]
          · intro p hp hne'
            exfalso
            rcases hp with hp | hp
            · exact hne' (gdst p hp)
            · exact hne' (gone p hp)
          · intro p hp
            exact gone p (by omega)
        | true =>
          simp only [if_true, Option.some.injEq, Prod.mk.injEq] at hs
          obtain ⟨rfl, rfl⟩ := hs
          obtain ⟨b', c1, c2, c3⟩ := mdCopy_eq (h'.alloc blk).1 h'.next blk
          refine ⟨m.set ((h'.alloc blk).1.write h'.next b') dst { m.ctx src with md := some h'.next }, ?_,
            memrel_set hR dst _ _ _ (copied_rel (h := m.h) (p := h'.next) hsrc hk hsm hb (if_pos rfl) c2 c3) ?_ ?_ ?_ ?_⟩
          · unfold copyInto
            rw [hsm]
            simp only [hb', if_true]
            have : (h'.alloc blk).2 = h'.next := rfl
            rw [this, c1]
          · intro p hp hlt
            rw [write_obj, if_neg (by omega), alloc_obj, if_neg (by omega), g3 p hp]
          · intro p hp
            cases hp
            exact Or.inr (by omega)
          · intro p hp hne'
            by_cases hpn : p = h'.next
            · rw [hpn]
            · exfalso
              apply hne'
              rw [write_obj, if_neg hpn, alloc_obj, if_neg hpn]
              rcases hp with hp | hp
              · exact gdst p hp
              · exact gone p hp
          · intro p hp
            have hp : h'.next + 1 ≤ p := hp
            rw [write_obj, if_neg (by omega), alloc_obj, if_neg (by omega)]
            exact gone p (by omega)
      by_cases hdg : (m.ctx dst).digest = some (.dig k)
      · obtain ⟨h', g1, g2, g3, g4, g5⟩ := cleanup_ok rng (hR.ctx dst) (m.ctx dst).cleaned (Or.inl rfl) true
        have g1 : cleanupOld rng m.h (m.ctx dst) true = some h' := g1
        have hstep : dhStep rng b m (.copy dst src ok) = copyInto m h' dst (m.ctx src) (m.ctx dst).md ok := by
          unfold dhStep
          simp only
          simp only [hsd, hdg, if_true, g1]
        by_cases hbr : s dst = .broken k
        · have hc := hR.ctx dst
          rw [hbr] at hc
          have hmd : (m.ctx dst).md = Option.none := hc.2
          have hnh : ¬ (s dst).held = some k := by rw [hbr]; intro h; cases h
          rw [hstep, hmd]
          refine fresh true (fun _ => hmd) h' g1 g2 g3 (fun h => by cases h) s' out ?_
          rw [← hs]
          cases ok <;> simp [hnh]
        · have hheld := (digest_iff (hR.ctx dst) k hbr).1 hdg
          rw [if_pos (Or.inl hheld)] at hs
          cases hs
          obtain ⟨p, blk0, c0, he0, hb0, ho0⟩ := held_ctx (hR.ctx dst) hheld
          have hmd : (m.ctx dst).md = some p := by rw [he0]
          have hpn : p < m.h.next := rel_lt hR hmd
          have hb' : h'.obj q = some blk := by rw [g3 q hne, hb]
          obtain ⟨b', c1, c2, c3⟩ := mdCopy_eq (h'.write p blk) p blk
          refine ⟨m.set ((h'.write p blk).write p b') dst { m.ctx src with md := some p }, ?_,
            memrel_set hR dst _ _ _ (copied_rel (h := m.h) (p := p) hsrc hk hsm hb (if_pos rfl) c2 c3) ?_ ?_ ?_ ?_⟩
          · rw [hstep, hmd]
            unfold copyInto
            rw [hsm]
            simp only [hb', c1]
          · intro r hr _
            have : r ≠ p := by rintro rfl; exact hr hmd
            rw [write_obj, if_neg this, write_obj, if_neg this, g3 r hr]
          · intro r hr
            cases hr
            exact Or.inl hmd
          · intro r hr hne'
            by_cases hrp : r = p
            · rw [hrp]
            · exfalso
              rcases hr with hr | hr
              · rw [hmd] at hr; cases hr; exact hrp rfl
              · apply hne'
                rw [write_obj, if_neg hrp, write_obj, if_neg hrp, g3 r (by rw [hmd]; intro h; cases h; exact hrp rfl)]
                exact hR.fresh r hr
          · intro r hr
            have hr : h'.next ≤ r := hr
            have hrp : r ≠ p := by omega
            rw [write_obj, if_neg hrp, write_obj, if_neg hrp, g3 r (by rw [hmd]; intro h; cases h; exact hrp rfl)]
            exact hR.fresh r (by omega)
      · obtain ⟨h', g1, g2, g3, g4, -⟩ := cleanup_ok rng (hR.ctx dst) (m.ctx dst).cleaned (Or.inl rfl) false
        have g1 : cleanupOld rng m.h (m.ctx dst) false = some h' := g1
        have hstep : dhStep rng b m (.copy dst src ok) = copyInto m h' dst (m.ctx src) Option.none ok := by
          unfold dhStep
          simp only
          simp only [hsd, if_neg hdg, g1]
        have hnh : ¬ (s dst).held = some k := by
          intro h
          obtain ⟨_, _, _, h0, -⟩ := held_ctx (hR.ctx dst) h
          exact hdg (by rw [h0])
        rw [hstep]
        refine fresh false (fun h => by cases h) h' g1 g2 g3 g4 s' out ?_
        rw [← hs]
        cases ok <;> simp [hnh]

theorem dhRun_refines (rng : Nat → Fin 8 → W32) (b : SbBuild) (ops : List DhOp) : ∀ (m : MdMem) (s s' : Nat → SpecMd) (outs : List MdRet), MemRel m s →
    shRun s ops = some (s', outs) → ∃ m', dhRun rng b m ops = some (m', outs) ∧ MemRel m' s' := by
  induction ops with
  | nil =>
    intro m s s' outs hR h
    cases h
    exact ⟨m, rfl, hR⟩
  | cons o ops ih =>
    intro m s s' outs hR h
    unfold shRun at h
    cases h1 : shStep s o with
    | none => rw [h1] at h; cases h
    | some r =>
      rw [h1] at h
      simp only at h
      obtain ⟨⟨s2, outs2⟩, h2, h3⟩ := Option.map_eq_some_iff.1 h
      cases h3
      obtain ⟨m1, e1, e2⟩ := dhStep_refines rng b m s r.1 hR o r.2 (by rw [h1])
      obtain ⟨m2, e3, e4⟩ := ih m1 r.1 s2 outs2 e2 h2
      refine ⟨m2, ?_, e4⟩
      unfold dhRun
      rw [e1]
      simp only [e3, Option.map_some]

/-- **C86**: for every history of calls on any number of contexts, allocations failing at any point: no call touches memory that was freed or is not
there, and every call returns what the specification says; in particular a final call gives the standard's hash of exactly the data its context got
since its message was begun, a copy having got what its source had got. -/
theorem C86_contexts (rng : Nat → Fin 8 → W32) (b : SbBuild) (ops : List DhOp) (s : Nat → SpecMd) (outs : List MdRet)
    (h : shRun (fun _ => .none) ops = some (s, outs)) : ∃ m, dhRun rng b .start ops = some (m, outs) := by
  obtain ⟨m, h1, -⟩ := dhRun_refines rng b ops .start _ s outs rel_start h
  exact ⟨m, h1⟩

/-- **C86**: the memory in use at any moment is that of the contexts that hold a message or finished one, one piece each; when every context has been reset
none is left. -/
theorem C86_no_leak (rng : Nat → Fin 8 → W32) (b : SbBuild) (ops : List DhOp) (s : Nat → SpecMd) (outs : List MdRet)
    (h : shRun (fun _ => .none) ops = some (s, outs)) (m : MdMem) (hm : dhRun rng b .start ops = some (m, outs)) :
    (∀ p, m.h.obj p ≠ Option.none → ∃ i k, (s i).held = some k ∧ (m.ctx i).md = some p) ∧
    (∀ i j p, (m.ctx i).md = some p → (m.ctx j).md = some p → i = j) ∧
    ((∀ i, s i = .none) → ∀ p, m.h.obj p = Option.none) := by
  obtain ⟨m', h1, hR⟩ := dhRun_refines rng b ops .start _ s outs rel_start h
  rw [hm] at h1
  cases h1
  have hall : ∀ p, m.h.obj p ≠ Option.none → ∃ i k, (s i).held = some k ∧ (m.ctx i).md = some p := by
    intro p hp
    obtain ⟨i, hi⟩ := hR.all p hp
    have hc := hR.ctx i
    cases hx : s i with
    | none => rw [hx] at hc; rw [show m.ctx i = .empty from hc] at hi; cases hi
    | broken k => rw [hx] at hc; rw [hc.2] at hi; cases hi
    | done k => exact ⟨i, k, by rw [hx]; rfl, hi⟩
    | msg k msg => exact ⟨i, k, by rw [hx]; rfl, hi⟩
  refine ⟨hall, hR.own, fun hn p => ?_⟩
  apply Classical.byContradiction
  intro hp
  obtain ⟨i, k, hk, -⟩ := hall p hp
  rw [hn i] at hk
  cases hk

/-- **C86**: the cipher context a context of GOST R 34.11-94 works with is its own. -/
theorem C86_own_cipher (rng : Nat → Fin 8 → W32) (b : SbBuild) (ops : List DhOp) (s : Nat → SpecMd) (outs : List MdRet)
    (h : shRun (fun _ => .none) ops = some (s, outs)) (m : MdMem) (hm : dhRun rng b .start ops = some (m, outs)) (i p : Nat) (msg : Bytes)
    (hi : s i = .msg .gost94 msg) (hp : (m.ctx i).md = some p) : ∃ c, m.h.obj p = some (.g94 c (some p)) := by
  obtain ⟨m', h1, hR⟩ := dhRun_refines rng b ops .start _ s outs rel_start h
  rw [hm] at h1
  cases h1
  have hc := hR.ctx i
  rw [hi] at hc
  obtain ⟨q, blk, he, hb, hh⟩ := hc
  rw [he] at hp
  cases hp
  cases blk with
  | g94 c r =>
    obtain ⟨-, rfl⟩ := hh
    exact ⟨c, hb⟩
  | sb c => exact hh.elim
  | mac c => exact hh.elim

/-- **C86 (finding)**: the clean-up of the MAC does not look whether there are data: a context whose memory could not be allocated cannot be reset or freed,
it follows a NULL pointer. The same with the hash functions is fine. -/
theorem C86_mac_out_of_memory (rng : Nat → Fin 8 → W32) (b : SbBuild) :
    dhRun rng b .start [.init 0 .mac false, .reset 0] = Option.none ∧
    ∀ k, (dhRun rng b .start [.init 0 (.dig k) false, .reset 0]).map (·.2) = some [⟨0, []⟩, ⟨1, []⟩] := by
  refine ⟨rfl, fun k => ?_⟩
  cases k <;> rfl

/-- Witness: messages in three contexts, copies onto new, used and failed contexts, a copy of a finished context, other hash functions asked of used contexts. -/
example : ∃ s outs, shRun (fun _ => .none) [.init 0 (.dig .gost94) true, .update 0 [1, 2], .copy 1 0 true, .copy 2 0 false, .update 0 [3], .final 0, .update 1 [4],
    .copy 0 1 false, .init 2 (.dig .sb512) true, .update 2 [5], .copy 1 2 true, .reset 2, .final 1, .copy 2 1 true, .init 2 (.dig .sb512) false, .final 0, .final 2,
    .reset 0, .reset 1, .reset 2] = some (s, outs) ∧ ∀ i, s i = .none :=
  ⟨_, _, rfl, fun i => by
    simp only [setSpec]
    by_cases h2 : i = 2
    · rw [if_pos h2]
    · by_cases h1 : i = 1
      · rw [if_neg h2, if_pos h1]
      · by_cases h0 : i = 0
        · rw [if_neg h2, if_neg h1, if_pos h0]
        · simp only [h0, h1, h2, if_false]⟩

end Gost
