import Verif.Model.OmacHeap

/-!
# C65: memory of the OMAC digests

The specification keeps for every `EVP_MD_CTX` its own MAC state *by value* (`ValCtx`): a copy is a copy of the value, there is no memory
and nothing can be shared.  The theorems say that the code, in which the state is an object behind a pointer, allocated, freed and copied
by the methods of the digest, returns the same for every history of calls over any number of contexts.
-/

namespace Gost.Spec

/-- The MAC algorithms, on values: the MAC state is `none` before a key is set. -/
structure ValMd (α β : Type) where
  zero : β
  start : β
  update : Option α → β → Bytes → Option (Option α × β × Int)
  final : Option α → β → Option (Int × Bytes)
  ctrl : Option α → β → MdCtrl → Option (Option α × β × Int)

/-- A context by value. -/
structure ValCtx (α β : Type) where
  data : Option (Option α × β)
  cleaned : Bool
  noInit : Bool

variable {α β : Type}

/-- One call; `none`: the call is not allowed (nothing was initialised, or the MAC state is used before a key was set). -/
def valStep (V : ValMd α β) (s : Nat → ValCtx α β) : MdOp → Option ((Nat → ValCtx α β) × Int × Bytes)
  | .init i =>
    if (s i).noInit then some (setCtx s i { s i with data := some ((s i).data.getD (none, V.zero)), cleaned := false }, 1, [])
    else some (setCtx s i { s i with data := some (none, V.start), cleaned := false }, 1, [])
  | .ctrl i c =>
    match (s i).data with
    | none => some (s, 0, [])
    | some d =>
      (V.ctrl d.1 d.2 c).map fun r =>
        (setCtx s i { s i with data := some (r.1, r.2.1), noInit := (s i).noInit || c.isSetKey }, if r.2.2 ≤ 0 then 0 else r.2.2, [])
  | .update i x =>
    if x = [] then some (s, 1, [])
    else
      match (s i).data with
      | none => none
      | some d => (V.update d.1 d.2 x).map fun r => (setCtx s i { s i with data := some (r.1, r.2.1) }, r.2.2, [])
  | .final i =>
    match (s i).data with
    | none => none
    | some d => (V.final d.1 d.2).map fun r => (setCtx s i { s i with data := some (none, V.zero), cleaned := true }, r.1, r.2)
  | .copy i j =>
    if i = j then none
    else
      match (s i).data with
      | none => some (s, 0, [])
      | some _ => some (setCtx s j (s i), 1, [])
  | .reset i => some (setCtx s i { data := none, cleaned := false, noInit := false }, 1, [])

/-- A history of calls. -/
def valRun (V : ValMd α β) : (Nat → ValCtx α β) → List MdOp → Option ((Nat → ValCtx α β) × List (Int × Bytes))
  | s, [] => some (s, [])
  | s, o :: os => (valStep V s o).bind fun r => (valRun V r.1 os).map fun t => (t.1, r.2 :: t.2)

/-- Before anything happened. -/
def valStart : Nat → ValCtx α β := fun _ => { data := none, cleaned := false, noInit := false }

/-- OMAC on values: cipher, key and all the data so far. -/
def omacVal (X : Crypto) (n : OmacCipher) : ValMd CmacObj OmacF where
  zero := OmacF.zero
  start := { OmacF.zero with cipher_name := some n, dgst_size := n.block }
  update a f x :=
    if f.key_set then a.map fun a => (some { a with data := a.data ++ x }, f, 1) else some (a, f, 0)
  final a f :=
    if f.key_set then a.map fun a => (1, (X.cmac a.cipher a.key a.data).take f.dgst_size) else some (0, [])
  ctrl a f
    | .setKey arg key =>
      if arg = 0 ∨ arg = 32 then
        some (some { cipher := n, key := key.take 32, data := [] },
          { dgst_size := n.block, cipher_name := some n, key_set := true, key := key.take 32 }, 1)
      else some (none, { OmacF.zero with cipher_name := some n, dgst_size := n.block }, 0)
    | .xofLen l =>
      f.cipher_name.map fun m => if l < 1 ∨ l > m.block then (a, f, 0) else (a, { f with dgst_size := l.toNat }, 1)
    | .tlstree seq =>
      if f.key_set then
        f.cipher_name.map fun m =>
          match gost_tlstree X m f.key seq with
          | none => (a, f, 0)
          | some k => (some { cipher := m, key := k.take 32, data := [] }, f, 1)
      else some (a, f, 0)
    | .keyMesh _ _ => some (a, f, 0)

/-- OMAC-ACPKM on values. -/
def acpkmVal : ValMd CmacCtx OmacAcpkmF where
  zero := OmacAcpkmF.zero
  start := { dgst_size := 16, named := true, key_set := false }
  update a f x :=
    if f.key_set then
      a.map fun a =>
        match CMAC_ACPKM_Update a x with
        | none => (some a, f, 0)
        | some b => (some b, f, 1)
    else some (a, f, 0)
  final a f :=
    if f.key_set then a.bind fun a => (CMAC_ACPKM_Final a).2.map fun mac => (1, mac.take f.dgst_size) else some (0, [])
  ctrl a f
    | .setKey arg key =>
      if arg = 0 ∨ arg = 32 then
        some (some (CMAC_ACPKM_Init CMAC_ACPKM_CTX_new key), { dgst_size := 16, named := true, key_set := true }, 1)
      else some (none, { dgst_size := 16, named := true, key_set := false }, 0)
    | .xofLen l => if f.named then (if l < 1 ∨ l > 16 then some (a, f, 0) else some (a, { f with dgst_size := l.toNat }, 1)) else none
    | .tlstree _ => some (a, f, 0)
    | .keyMesh N T =>
      if N = 0 ∨ N.tmod 16 ≠ 0 then some (a, f, -1)
      else a.map fun a => (some (cmacKeyMesh a N T).1, f, (cmacKeyMesh a N T).2)

/-- The calls after which a MAC state of the context written to is not reachable any more without having been freed, in the state `s` of the
specification: a key set on a context that has one already; a context reset or copied into when it was given a key after its final call. -/
def LeakingCall (s : Nat → ValCtx α β) : MdOp → Prop
  | .ctrl i (.setKey _ _) => ∃ a f, (s i).data = some (some a, f)
  | .reset i => (s i).cleaned = true ∧ ∃ a f, (s i).data = some (some a, f)
  | .copy i j => i ≠ j ∧ (s i).data ≠ none ∧ (s j).cleaned = true ∧ ∃ a f, (s j).data = some (some a, f)
  | _ => False

/-- No call of the history is such. -/
def NoLeakingCall (V : ValMd α β) : (Nat → ValCtx α β) → List MdOp → Prop
  | _, [] => True
  | s, o :: os => ¬ LeakingCall s o ∧ ∀ r, valStep V s o = some r → NoLeakingCall V r.1 os

end Gost.Spec

namespace Gost

open Spec

variable {α β : Type}

/-! ## Representation -/

/-- The data `d` in the memory `h` stand for the value `a`, `f`. -/
structure Abs (h : Heap α) (d : PtrData β) (a : Option α) (f : β) : Prop where
  f_eq : d.f = f
  ptr : d.ptr.map h.obj = a.map some

/-- Memory is used up to `next`. -/
def Heap.Wf (h : Heap α) : Prop := ∀ q, h.obj q ≠ none → q < h.next

/-- What a method may do with the memory: only the object of its own data is written or freed, new objects are new. -/
structure Local (h : Heap α) (d : PtrData β) (h' : Heap α) (d' : PtrData β) : Prop where
  wf : h'.Wf
  next : h.next ≤ h'.next
  frame : ∀ q, q < h.next → d.ptr ≠ some q → h'.obj q = h.obj q
  own : ∀ q, d'.ptr = some q → d.ptr = some q ∨ h.next ≤ q

/-- All that was allocated is still reachable: nothing but the object of the new data and other objects are live. -/
def NoLeak (h : Heap α) (d : PtrData β) (h' : Heap α) (d' : PtrData β) : Prop :=
  ∀ q, h'.obj q ≠ none → d'.ptr = some q ∨ (h.obj q ≠ none ∧ d.ptr ≠ some q)

/-- The methods with memory and the algorithms on values correspond, for the values satisfying `wf`. -/
structure MdRefines (M : HeapMd α β) (V : ValMd α β) (wf : Option α → β → Prop) : Prop where
  zero : M.zero = V.zero
  init : ∀ d, M.init d = { ptr := none, f := V.start }
  wf_zero : wf none V.zero
  wf_start : wf none V.start
  wf_update : ∀ a f x r, wf a f → V.update a f x = some r → wf r.1 r.2.1
  wf_ctrl : ∀ a f c r, wf a f → V.ctrl a f c = some r → wf r.1 r.2.1
  ctrl_new : ∀ a f c r, wf a f → V.ctrl a f c = some r → r.1 ≠ none → a ≠ none ∨ c.isSetKey = true
  update_new : ∀ a f x r, wf a f → V.update a f x = some r → a = none → r.1 = none
  update_none : ∀ h d a f x, Abs h d a f → wf a f → V.update a f x = none → M.update h d x = none
  update_some : ∀ h d a f x r, h.Wf → Abs h d a f → wf a f → V.update a f x = some r →
    ∃ h' d', M.update h d x = some (h', d', r.2.2) ∧ Abs h' d' r.1 r.2.1 ∧ Local h d h' d' ∧ NoLeak h d h' d'
  final_none : ∀ h d a f, Abs h d a f → wf a f → V.final a f = none → M.final h d = none
  final_some : ∀ h d a f r, h.Wf → Abs h d a f → wf a f → V.final a f = some r →
    ∃ h' d', M.final h d = some (h', d', r.1, r.2) ∧ (∃ a' f', Abs h' d' a' f') ∧ Local h d h' d' ∧ NoLeak h d h' d'
  cleanup : ∀ h d a f, h.Wf → Abs h d a f →
    ∃ h' d', M.cleanup h d = some (h', d') ∧ Abs h' d' none V.zero ∧ Local h d h' d' ∧ NoLeak h d h' d'
  ctrl_none : ∀ h d a f c, Abs h d a f → wf a f → V.ctrl a f c = none → M.ctrl h d c = none
  ctrl_some : ∀ h d a f c r, h.Wf → Abs h d a f → wf a f → V.ctrl a f c = some r →
    ∃ h' d', M.ctrl h d c = some (h', d', r.2.2) ∧ Abs h' d' r.1 r.2.1 ∧ Local h d h' d' ∧
      (c.isSetKey = false ∨ a = none → NoLeak h d h' d')
  copy : ∀ h d a f, h.Wf → Abs h d a f → wf a f →
    ∃ h' d', M.copy h d d = some (h', d', 1) ∧ Abs h' d' a f ∧ Local h { d with ptr := none } h' d' ∧ NoLeak h { d with ptr := none } h' d'

/-! ## Memory lemmas -/

theorem Abs.none_ptr {h : Heap α} {d : PtrData β} {f : β} (H : Abs h d none f) : d.ptr = none := by
  have := H.ptr
  cases hp : d.ptr with
  | none => rfl
  | some p => rw [hp] at this; cases this

theorem Abs.some_ptr {h : Heap α} {d : PtrData β} {a : α} {f : β} (H : Abs h d (some a) f) : ∃ p, d.ptr = some p ∧ h.obj p = some a := by
  have := H.ptr
  cases hp : d.ptr with
  | none => rw [hp] at this; cases this
  | some p => rw [hp] at this; exact ⟨p, rfl, by simpa using this⟩

theorem Abs.mk_none {h : Heap α} {f : β} : Abs h { ptr := none, f := f } none f := ⟨rfl, rfl⟩

theorem Abs.mk_some {h : Heap α} {p : Nat} {a : α} {f : β} (H : h.obj p = some a) : Abs h { ptr := some p, f := f } (some a) f :=
  ⟨rfl, by simp [H]⟩

theorem Local.refl {h : Heap α} {d : PtrData β} (hw : h.Wf) (f : β) : Local h d h { ptr := d.ptr, f := f } :=
  ⟨hw, Nat.le_refl _, fun _ _ _ => rfl, fun _ hq => Or.inl hq⟩

theorem NoLeak.refl {h : Heap α} {d : PtrData β} (f : β) : NoLeak h d h { ptr := d.ptr, f := f } := by
  intro q hq
  by_cases hd : d.ptr = some q
  · exact Or.inl hd
  · exact Or.inr ⟨hq, hd⟩

theorem Local.lose {h : Heap α} {d : PtrData β} (hw : h.Wf) (f : β) : Local h d h { ptr := none, f := f } :=
  ⟨hw, Nat.le_refl _, fun _ _ _ => rfl, fun _ hq => by cases hq⟩

theorem wf_write {h : Heap α} {p : Nat} {a b : α} (hw : h.Wf) (hp : h.obj p = some a) : (h.write p b).Wf := by
  intro q hq
  by_cases hqp : q = p
  · subst hqp; exact hw q (by rw [hp]; simp)
  · exact hw q (by simpa [Heap.write, hqp] using hq)

theorem local_write {h : Heap α} {d : PtrData β} {p : Nat} {a b : α} (hw : h.Wf) (hd : d.ptr = some p) (hp : h.obj p = some a) (f : β) :
    Local h d (h.write p b) { ptr := some p, f := f } := by
  refine ⟨wf_write hw hp, Nat.le_refl _, fun q _ hq => ?_, fun q hq => Or.inl (by rw [hd]; exact hq)⟩
  have : q ≠ p := by intro e; subst e; exact hq hd
  simp [Heap.write, this]

theorem noLeak_write {h : Heap α} {d : PtrData β} {p : Nat} {b : α} (hd : d.ptr = some p) (f : β) :
    NoLeak h d (h.write p b) { ptr := some p, f := f } := by
  intro q hq
  by_cases hqp : q = p
  · subst hqp; exact Or.inl rfl
  · refine Or.inr ⟨by simpa [Heap.write, hqp] using hq, ?_⟩
    rw [hd]; intro e; cases e; exact hqp rfl

theorem abs_write {h : Heap α} {p : Nat} {b : α} (f : β) : Abs (h.write p b) { ptr := some p, f := f } (some b) f :=
  Abs.mk_some (by simp [Heap.write])

theorem wf_alloc {h : Heap α} {a : α} (hw : h.Wf) : (h.alloc a).1.Wf := by
  intro q hq
  by_cases hqn : q = h.next
  · subst hqn; simp [Heap.alloc]
  · have := hw q (by simpa [Heap.alloc, hqn] using hq)
    simp only [Heap.alloc]; omega

theorem abs_alloc {h : Heap α} {a : α} (f : β) : Abs (h.alloc a).1 { ptr := some (h.alloc a).2, f := f } (some a) f :=
  Abs.mk_some (by simp [Heap.alloc])

theorem local_alloc {h : Heap α} {d : PtrData β} {a : α} (hw : h.Wf) (f : β) :
    Local h d (h.alloc a).1 { ptr := some (h.alloc a).2, f := f } := by
  refine ⟨wf_alloc hw, by simp [Heap.alloc], fun q hq _ => ?_, fun q hq => Or.inr ?_⟩
  · have : q ≠ h.next := by omega
    simp [Heap.alloc, this]
  · cases hq; simp [Heap.alloc]

theorem noLeak_alloc {h : Heap α} {d : PtrData β} {a : α} (hd : d.ptr = none) (f : β) :
    NoLeak h d (h.alloc a).1 { ptr := some (h.alloc a).2, f := f } := by
  intro q hq
  by_cases hqn : q = h.next
  · subst hqn; exact Or.inl rfl
  · exact Or.inr ⟨by simpa [Heap.alloc, hqn] using hq, by rw [hd]; simp⟩

/-- Freeing the object of data that stand for a value. -/
theorem free_facts {h : Heap α} {d : PtrData β} {a : Option α} {f : β} (hw : h.Wf) (H : Abs h d a f) (g : β) :
    ∃ h', h.free d.ptr = some h' ∧ Local h d h' { ptr := none, f := g } ∧ NoLeak h d h' { ptr := none, f := g } ∧ h'.next = h.next := by
  cases a with
  | none =>
    rw [H.none_ptr]
    exact ⟨h, rfl, Local.lose hw g, fun q hq => Or.inr ⟨hq, by rw [H.none_ptr]; simp⟩, rfl⟩
  | some a =>
    obtain ⟨p, hd, hp⟩ := H.some_ptr
    refine ⟨{ h with obj := fun q => if q = p then none else h.obj q }, by simp [Heap.free, hd, hp], ⟨?_, Nat.le_refl _, ?_, ?_⟩, ?_, rfl⟩
    · intro q hq
      by_cases hqp : q = p
      · subst hqp; simp at hq
      · exact hw q (by simpa [hqp] using hq)
    · intro q _ hq
      have : q ≠ p := by intro e; subst e; exact hq hd
      simp [this]
    · intro q hq; cases hq
    · intro q hq
      by_cases hqp : q = p
      · subst hqp; simp at hq
      · refine Or.inr ⟨by simpa [hqp] using hq, ?_⟩
        rw [hd]; intro e; cases e; exact hqp rfl

theorem Local.trans {h₁ h₂ h₃ : Heap α} {d₁ d₂ d₃ : PtrData β} (H : Local h₁ d₁ h₂ d₂) (K : Local h₂ d₂ h₃ d₃) :
    Local h₁ d₁ h₃ d₃ := by
  refine ⟨K.wf, Nat.le_trans H.next K.next, fun q hq hd => ?_, fun q hq => ?_⟩
  · have h2 : d₂.ptr ≠ some q := by
      intro e
      rcases H.own q e with h | h
      · exact hd h
      · omega
    rw [K.frame q (Nat.lt_of_lt_of_le hq H.next) h2, H.frame q hq hd]
  · rcases K.own q hq with h | h
    · exact H.own q h
    · exact Or.inr (Nat.le_trans H.next h)

theorem NoLeak.trans {h₁ h₂ h₃ : Heap α} {d₁ d₂ d₃ : PtrData β} (H : NoLeak h₁ d₁ h₂ d₂) (K : NoLeak h₂ d₂ h₃ d₃) :
    NoLeak h₁ d₁ h₃ d₃ := by
  intro q hq
  rcases K q hq with h | ⟨h, h'⟩
  · exact Or.inl h
  · rcases H q h with e | e
    · exact absurd e h'
    · exact Or.inr e

/-! ## All the contexts -/

/-- The data of a context stand for its value. -/
def DataRel (wf : Option α → β → Prop) (h : Heap α) : Option (PtrData β) → Option (Option α × β) → Prop
  | none, none => True
  | some d, some v => Abs h d v.1 v.2 ∧ wf v.1 v.2
  | _, _ => False

/-- The pointer of a context. -/
def EvpMdCtx.own (e : EvpMdCtx β) : Option Nat := e.data.bind (·.ptr)

/-- All contexts stand for their values, no object belongs to two contexts, and a context with a key has `EVP_MD_CTX_FLAG_NO_INIT`. -/
structure HeapInv (wf : Option α → β → Prop) (s : MdState α β) (v : Nat → ValCtx α β) : Prop where
  heap : s.heap.Wf
  data : ∀ i, DataRel wf s.heap (s.ctx i).data (v i).data
  cleaned : ∀ i, (s.ctx i).cleaned = (v i).cleaned
  noInit : ∀ i, (s.ctx i).noInit = (v i).noInit
  disj : ∀ i j p, i ≠ j → (s.ctx i).own = some p → (s.ctx j).own ≠ some p
  keyed : ∀ i a f, (v i).data = some (some a, f) → (v i).noInit = true

/-- Every live object belongs to a context. -/
def MdOwned (s : MdState α β) : Prop := ∀ q, s.heap.obj q ≠ none → ∃ i, (s.ctx i).own = some q

theorem DataRel.live {wf : Option α → β → Prop} {h : Heap α} {e : EvpMdCtx β} {v : Option (Option α × β)} (H : DataRel wf h e.data v)
    {p : Nat} (hp : e.own = some p) : h.obj p ≠ none := by
  unfold EvpMdCtx.own at hp
  cases hd : e.data with
  | none => rw [hd] at hp; cases hp
  | some d =>
    rw [hd] at hp H
    replace hp : d.ptr = some p := hp
    cases v with
    | none => exact H.elim
    | some v =>
      have := H.1.ptr
      rw [hp] at this
      intro hn
      rw [Option.map_some, hn] at this
      cases hv : v.1 with
      | none => rw [hv] at this; cases this
      | some a => rw [hv] at this; simp at this

theorem DataRel.frame {wf : Option α → β → Prop} {h h' : Heap α} {e : EvpMdCtx β} {v : Option (Option α × β)} (H : DataRel wf h e.data v)
    (K : ∀ p, e.own = some p → h'.obj p = h.obj p) : DataRel wf h' e.data v := by
  unfold EvpMdCtx.own at K
  cases hd : e.data with
  | none => rw [hd] at H; cases v with
    | none => trivial
    | some v => exact H.elim
  | some d =>
    rw [hd] at H K
    cases v with
    | none => exact H.elim
    | some v =>
      refine ⟨⟨H.1.f_eq, ?_⟩, H.2⟩
      rw [← H.1.ptr]
      cases hp : d.ptr with
      | none => rfl
      | some p => simp [K p (by simpa using hp)]

/-- One context changed by a method. -/
theorem inv_set {wf : Option α → β → Prop} {s : MdState α β} {v : Nat → ValCtx α β} (I : HeapInv wf s v) (i : Nat) {D D' : PtrData β}
    {h' : Heap α} {e : EvpMdCtx β} {w : ValCtx α β} (hD : D.ptr = (s.ctx i).own) (L : Local s.heap D h' D')
    (he : ∀ p, e.own = some p → D'.ptr = some p) (hr : DataRel wf h' e.data w.data) (hc : e.cleaned = w.cleaned)
    (hn : e.noInit = w.noInit) (hk : ∀ a f, w.data = some (some a, f) → w.noInit = true) :
    HeapInv wf { heap := h', ctx := setCtx s.ctx i e } (setCtx v i w) := by
  have lt : ∀ j p, (s.ctx j).own = some p → p < s.heap.next := fun j p hp => I.heap p ((I.data j).live hp)
  have new : ∀ j p, j ≠ i → (s.ctx j).own = some p → e.own ≠ some p := by
    intro j p hj hp hep
    rcases L.own p (he p hep) with h | h
    · rw [hD] at h; exact I.disj i j p (Ne.symm hj) h hp
    · exact absurd (lt j p hp) (by omega)
  refine ⟨L.wf, fun j => ?_, fun j => ?_, fun j => ?_, fun j k p hjk hj => ?_, fun j a f hj => ?_⟩
  · by_cases hj : j = i
    · subst hj; simpa [setCtx] using hr
    · simp only [setCtx, if_neg hj]
      refine (I.data j).frame fun p hp => L.frame p (lt j p hp) ?_
      rw [hD]
      exact fun h => I.disj i j p (Ne.symm hj) h hp
  · by_cases hj : j = i
    · subst hj; simpa [setCtx] using hc
    · simpa only [setCtx, if_neg hj] using I.cleaned j
  · by_cases hj : j = i
    · subst hj; simpa [setCtx] using hn
    · simpa only [setCtx, if_neg hj] using I.noInit j
  · by_cases h1 : j = i
    · have h2 : k ≠ i := fun h => hjk (h1.trans h.symm)
      simp only [setCtx, if_pos h1] at hj
      simp only [setCtx, if_neg h2]
      exact fun hp => new k p h2 hp hj
    · simp only [setCtx, if_neg h1] at hj
      by_cases h2 : k = i
      · simp only [setCtx, if_pos h2]; exact new j p h1 hj
      · simp only [setCtx, if_neg h2]; exact I.disj j k p hjk hj
  · by_cases h1 : j = i
    · subst h1; simp only [setCtx, if_true] at hj ⊢; exact hk a f hj
    · simp only [setCtx, if_neg h1] at hj ⊢; exact I.keyed j a f hj

theorem owned_set {s : MdState α β} (i : Nat) {D D' : PtrData β} {h' : Heap α} {e : EvpMdCtx β} (O : MdOwned s)
    (hD : D.ptr = (s.ctx i).own) (L : NoLeak s.heap D h' D') (he : ∀ p, D'.ptr = some p → e.own = some p) :
    MdOwned { heap := h', ctx := setCtx s.ctx i e } := by
  intro q hq
  rcases L q hq with h | ⟨h, h'⟩
  · exact ⟨i, by simpa [setCtx] using he q h⟩
  · obtain ⟨j, hj⟩ := O q h
    have : j ≠ i := by
      intro e; subst e
      exact h' (by rw [hD]; exact hj)
    exact ⟨j, by simpa only [setCtx, if_neg this] using hj⟩

/-- What `EVP_MD_CTX_reset` does with the memory. -/
theorem reset_facts {M : HeapMd α β} {V : ValMd α β} {wf : Option α → β → Prop} (R : MdRefines M V wf) {s : MdState α β}
    {v : Nat → ValCtx α β} (I : HeapInv wf s v) (i : Nat) :
    ∃ h', evpCleanup M s.heap (s.ctx i) = some h' ∧
      HeapInv wf { heap := h', ctx := setCtx s.ctx i { data := none, cleaned := false, noInit := false } }
        (setCtx v i { data := none, cleaned := false, noInit := false }) ∧
      (MdOwned s → ¬ ((v i).cleaned = true ∧ ∃ a f, (v i).data = some (some a, f)) →
        MdOwned { heap := h', ctx := setCtx s.ctx i { data := none, cleaned := false, noInit := false } }) := by
  have hI := I.data i
  unfold evpCleanup
  cases hd : (s.ctx i).data with
  | none =>
    have hown : (s.ctx i).own = none := by simp [EvpMdCtx.own, hd]
    exact ⟨s.heap, rfl,
      inv_set I i (D := ⟨none, M.zero⟩) (D' := ⟨none, M.zero⟩) hown.symm (Local.lose I.heap _) (fun p hp => by cases hp) trivial rfl rfl
        (fun a f h => by cases h),
      fun O _ => owned_set i (D := ⟨none, M.zero⟩) (D' := ⟨none, M.zero⟩) O hown.symm (NoLeak.refl _) (fun p hp => by cases hp)⟩
  | some d =>
    have hown : d.ptr = (s.ctx i).own := by simp [EvpMdCtx.own, hd]
    rw [hd] at hI
    cases hv : (v i).data with
    | none => rw [hv] at hI; exact hI.elim
    | some w =>
      rw [hv] at hI
      by_cases hc : (s.ctx i).cleaned = true
      · refine ⟨s.heap, by simp [hc],
          inv_set I i (D := d) (D' := ⟨none, M.zero⟩) hown (Local.lose I.heap _) (fun p hp => by cases hp) trivial rfl rfl
            (fun a f h => by cases h), fun O hN => ?_⟩
        have hw : w.1 = none := by
          cases hw : w.1 with
          | none => rfl
          | some a => exact absurd ⟨(I.cleaned i) ▸ hc, a, w.2, by rw [← hw]⟩ hN
        have hp : d.ptr = none := by
          have := hI.1
          rw [hw] at this
          exact this.none_ptr
        exact owned_set i (D := ⟨none, M.zero⟩) (D' := ⟨none, M.zero⟩) O (by rw [← hown, hp]) (NoLeak.refl _) (fun p hp => by cases hp)
      · obtain ⟨h', d', hcl, hA, L, N⟩ := R.cleanup s.heap d w.1 w.2 I.heap hI.1
        exact ⟨h', by simp [hc, hcl],
          inv_set I i (D := d) (D' := d') hown L (fun p hp => by cases hp) trivial rfl rfl (fun a f h => by cases h),
          fun O _ => owned_set i (D := d) (D' := d') O hown N (fun p hp => by rw [hA.none_ptr] at hp; cases hp)⟩

theorem setCtx_twice {γ : Type} (c : Nat → γ) (i : Nat) (a b : γ) : setCtx (setCtx c i a) i b = setCtx c i b := by
  funext k
  by_cases h : k = i <;> simp [setCtx, h]

/-- One call. -/
theorem step_refines {M : HeapMd α β} {V : ValMd α β} {wf : Option α → β → Prop} (R : MdRefines M V wf) {s : MdState α β}
    {v : Nat → ValCtx α β} (I : HeapInv wf s v) (o : MdOp) :
    (valStep V v o = none → mdStep M s o = none) ∧
    ∀ r, valStep V v o = some r →
      ∃ s', mdStep M s o = some (s', r.2) ∧ HeapInv wf s' r.1 ∧ (MdOwned s → ¬ LeakingCall v o → MdOwned s') := by
  cases o with
  | init i =>
    have hI := I.data i
    refine ⟨fun h => (by simp only [valStep] at h; split at h <;> simp at h), fun r hr => ?_⟩
    by_cases hn : (s.ctx i).noInit = true
    · have hn' : (v i).noInit = true := I.noInit i ▸ hn
      simp only [valStep, hn', if_true] at hr
      cases hr
      cases hd : (s.ctx i).data with
      | none =>
        rw [hd] at hI
        cases hv : (v i).data with
        | some w => rw [hv] at hI; exact hI.elim
        | none =>
          have hown : (s.ctx i).own = none := by simp [EvpMdCtx.own, hd]
          refine ⟨_, by simp only [mdStep, hn, if_true]; rfl, ?_, fun O _ => ?_⟩
          · refine inv_set I i (D := ⟨none, M.zero⟩) (D' := ⟨none, M.zero⟩) hown.symm (Local.lose I.heap _) ?_ ?_ rfl rfl ?_
            · intro p hp; simp [EvpMdCtx.own, hd] at hp
            · rw [hd, R.zero]; exact ⟨Abs.mk_none, R.wf_zero⟩
            · intro a f h; rfl
          · exact owned_set i (D := ⟨none, M.zero⟩) (D' := ⟨none, M.zero⟩) O hown.symm (NoLeak.refl _) (fun p hp => by cases hp)
      | some d =>
        rw [hd] at hI
        have hown : d.ptr = (s.ctx i).own := by simp [EvpMdCtx.own, hd]
        cases hv : (v i).data with
        | none => rw [hv] at hI; exact hI.elim
        | some w =>
          rw [hv] at hI
          refine ⟨_, by simp only [mdStep, hn, if_true]; rfl, ?_, fun O _ => ?_⟩
          · refine inv_set I i (D := d) (D' := d) hown (Local.refl I.heap d.f) ?_ ?_ rfl rfl ?_
            · intro p hp; simpa [EvpMdCtx.own, hd] using hp
            · rw [hd]; exact hI
            · intro a f h; rfl
          · exact owned_set i (D := d) (D' := d) O hown (NoLeak.refl _) (fun p hp => by simpa [EvpMdCtx.own, hd] using hp)
    · have hn' : ¬ (v i).noInit = true := by rw [← I.noInit i]; exact hn
      simp only [valStep, if_neg hn'] at hr
      cases hr
      have hnone : (s.ctx i).own = none := by
        cases hd : (s.ctx i).data with
        | none => simp [EvpMdCtx.own, hd]
        | some d =>
          rw [hd] at hI
          cases hv : (v i).data with
          | none => rw [hv] at hI; exact hI.elim
          | some w =>
            rw [hv] at hI
            have : w.1 = none := by
              cases hw : w.1 with
              | none => rfl
              | some a => exact absurd (I.keyed i a w.2 (by rw [hv, ← hw])) hn'
            have hA := hI.1
            rw [this] at hA
            simp [EvpMdCtx.own, hd, hA.none_ptr]
      refine ⟨_, by simp only [mdStep, if_neg hn, R.init]; rfl, ?_, fun O _ => ?_⟩
      · refine inv_set I i (D := ⟨none, M.zero⟩) (D' := ⟨none, M.zero⟩) hnone.symm (Local.lose I.heap _) ?_ ?_ rfl (I.noInit i) ?_
        · intro p hp; simp [EvpMdCtx.own] at hp
        · exact ⟨Abs.mk_none, R.wf_start⟩
        · intro a f h; cases h
      · exact owned_set i (D := ⟨none, M.zero⟩) (D' := ⟨none, M.zero⟩) O hnone.symm (NoLeak.refl _) (fun p hp => by cases hp)
  | ctrl i c =>
    have hI := I.data i
    cases hd : (s.ctx i).data with
    | none =>
      rw [hd] at hI
      cases hv : (v i).data with
      | some w => rw [hv] at hI; exact hI.elim
      | none =>
        simp only [valStep, mdStep, hd, hv]
        refine ⟨(by simp), fun r hr => ?_⟩
        cases hr
        exact ⟨s, rfl, I, fun O _ => O⟩
    | some d =>
      rw [hd] at hI
      have hown : d.ptr = (s.ctx i).own := by simp [EvpMdCtx.own, hd]
      cases hv : (v i).data with
      | none => rw [hv] at hI; exact hI.elim
      | some w =>
        rw [hv] at hI
        simp only [valStep, mdStep, hd, hv]
        cases hc : V.ctrl w.1 w.2 c with
        | none =>
          rw [R.ctrl_none _ _ _ _ _ hI.1 hI.2 hc]
          exact ⟨(by simp), fun r hr => by cases hr⟩
        | some r =>
          obtain ⟨h', d', hM, hA, L, N⟩ := R.ctrl_some _ _ _ _ _ _ I.heap hI.1 hI.2 hc
          rw [hM]
          refine ⟨(by simp), fun r' hr => ?_⟩
          cases hr
          refine ⟨_, rfl, ?_, fun O hN => ?_⟩
          · refine inv_set I i (D := d) (D' := d') hown L ?_ ?_ (I.cleaned i) ?_ ?_
            · intro p hp; simpa [EvpMdCtx.own] using hp
            · exact ⟨hA, R.wf_ctrl _ _ _ _ hI.2 hc⟩
            · show ((s.ctx i).noInit || _) = ((v i).noInit || _)
              rw [I.noInit i]
            · intro a f h
              simp only [Option.some.injEq, Prod.mk.injEq] at h
              rcases R.ctrl_new _ _ _ _ hI.2 hc (by rw [h.1]; simp) with h1 | h1
              · have : (v i).noInit = true := by
                  cases hw : w.1 with
                  | none => exact absurd hw h1
                  | some b => exact I.keyed i b w.2 (by rw [hv, ← hw])
                simp [this]
              · simp [h1]
          · refine owned_set i (D := d) (D' := d') O hown (N ?_) (fun p hp => by simpa [EvpMdCtx.own] using hp)
            cases c with
            | setKey arg key =>
              right
              cases hw : w.1 with
              | none => rfl
              | some b => exact absurd ⟨b, w.2, by rw [hv, ← hw]⟩ hN
            | xofLen _ => left; rfl
            | tlstree _ => left; rfl
            | keyMesh _ _ => left; rfl
  | update i x =>
    have hI := I.data i
    by_cases hx : x = []
    · simp only [valStep, mdStep, if_pos hx]
      refine ⟨(by simp), fun r hr => ?_⟩
      cases hr
      exact ⟨s, rfl, I, fun O _ => O⟩
    simp only [valStep, mdStep, if_neg hx]
    cases hd : (s.ctx i).data with
    | none =>
      rw [hd] at hI
      cases hv : (v i).data with
      | some w => rw [hv] at hI; exact hI.elim
      | none => exact ⟨fun _ => rfl, fun r hr => by cases hr⟩
    | some d =>
      rw [hd] at hI
      have hown : d.ptr = (s.ctx i).own := by simp [EvpMdCtx.own, hd]
      cases hv : (v i).data with
      | none => rw [hv] at hI; exact hI.elim
      | some w =>
        rw [hv] at hI
        simp only []
        cases hc : V.update w.1 w.2 x with
        | none =>
          rw [R.update_none _ _ _ _ _ hI.1 hI.2 hc]
          exact ⟨(by simp), fun r hr => by cases hr⟩
        | some r =>
          obtain ⟨h', d', hM, hA, L, N⟩ := R.update_some _ _ _ _ _ _ I.heap hI.1 hI.2 hc
          rw [hM]
          refine ⟨(by simp), fun r' hr => ?_⟩
          cases hr
          refine ⟨_, rfl, ?_, fun O hN => ?_⟩
          · refine inv_set I i (D := d) (D' := d') hown L ?_ ?_ (I.cleaned i) (I.noInit i) ?_
            · intro p hp; simpa [EvpMdCtx.own] using hp
            · exact ⟨hA, R.wf_update _ _ _ _ hI.2 hc⟩
            · intro a f h
              simp only [Option.some.injEq, Prod.mk.injEq] at h
              cases hw : w.1 with
              | none =>
                have := R.update_new _ _ _ _ hI.2 hc hw
                rw [this] at h; cases h.1
              | some b => exact I.keyed i b w.2 (by rw [hv, ← hw])
          · exact owned_set i (D := d) (D' := d') O hown N (fun p hp => by simpa [EvpMdCtx.own] using hp)
  | final i =>
    have hI := I.data i
    simp only [valStep, mdStep]
    cases hd : (s.ctx i).data with
    | none =>
      rw [hd] at hI
      cases hv : (v i).data with
      | some w => rw [hv] at hI; exact hI.elim
      | none => exact ⟨fun _ => rfl, fun r hr => by cases hr⟩
    | some d =>
      rw [hd] at hI
      have hown : d.ptr = (s.ctx i).own := by simp [EvpMdCtx.own, hd]
      cases hv : (v i).data with
      | none => rw [hv] at hI; exact hI.elim
      | some w =>
        rw [hv] at hI
        simp only []
        cases hc : V.final w.1 w.2 with
        | none =>
          rw [R.final_none _ _ _ _ hI.1 hI.2 hc]
          exact ⟨(by simp), fun r hr => by cases hr⟩
        | some r =>
          obtain ⟨h', d', hM, ⟨a', f', hA⟩, L, N⟩ := R.final_some _ _ _ _ _ I.heap hI.1 hI.2 hc
          obtain ⟨h2, d2, hM2, hA2, L2, N2⟩ := R.cleanup _ _ _ _ L.wf hA
          rw [hM]
          simp only [Option.bind_some, hM2]
          refine ⟨(by simp), fun r' hr => ?_⟩
          cases hr
          refine ⟨_, rfl, ?_, fun O hN => ?_⟩
          · refine inv_set I i (D := d) (D' := d2) hown (L.trans L2) ?_ ?_ rfl (I.noInit i) ?_
            · intro p hp; simpa [EvpMdCtx.own] using hp
            · exact ⟨hA2, R.wf_zero⟩
            · intro a f h; cases h
          · exact owned_set i (D := d) (D' := d2) O hown (N.trans N2) (fun p hp => by simpa [EvpMdCtx.own] using hp)
  | copy i j =>
    by_cases hij : i = j
    · simp only [valStep, mdStep, if_pos hij]
      exact ⟨(by simp), fun r hr => by cases hr⟩
    simp only [valStep, mdStep, if_neg hij]
    have hI := I.data i
    cases hd : (s.ctx i).data with
    | none =>
      rw [hd] at hI
      cases hv : (v i).data with
      | some w => rw [hv] at hI; exact hI.elim
      | none =>
        refine ⟨(by simp), fun r hr => ?_⟩
        cases hr
        exact ⟨s, rfl, I, fun O _ => O⟩
    | some d =>
      rw [hd] at hI
      cases hv : (v i).data with
      | none => rw [hv] at hI; exact hI.elim
      | some w =>
        refine ⟨(by simp), fun r hr => ?_⟩
        cases hr
        obtain ⟨h', hcl, I', O'⟩ := reset_facts R I j
        have hI' := I'.data i
        simp only [setCtx, if_neg hij, hd, hv] at hI'
        have hown : ({ d with ptr := none } : PtrData β).ptr =
            (({ heap := h', ctx := setCtx s.ctx j { data := none, cleaned := false, noInit := false } } : MdState α β).ctx j).own := by
          simp [setCtx, EvpMdCtx.own]
        obtain ⟨h2, d2, hM, hA, L, N⟩ := R.copy h' d w.1 w.2 I'.heap hI'.1 hI'.2
        have J := inv_set I' j (e := { s.ctx i with data := some d2 }) (w := v i) hown L
          (fun p hp => by simpa [EvpMdCtx.own] using hp) (by rw [hv]; exact ⟨hA, hI'.2⟩) (I.cleaned i) (I.noInit i)
          (fun a f h => I.keyed i a f h)
        simp only [setCtx_twice] at J
        refine ⟨_, by rw [hcl]; simp only [Option.bind_some, hM, Option.map_some], J, fun O hN => ?_⟩
        have K := owned_set j (e := { s.ctx i with data := some d2 })
          (O' O (fun h => hN ⟨hij, by rw [hv]; simp, h.1, h.2⟩)) hown N (fun p hp => by simpa [EvpMdCtx.own] using hp)
        simpa only [setCtx_twice] using K
  | reset i =>
    simp only [valStep, mdStep]
    refine ⟨(by simp), fun r hr => ?_⟩
    cases hr
    obtain ⟨h', hcl, I', O'⟩ := reset_facts R I i
    rw [hcl]
    exact ⟨_, rfl, I', O'⟩

/-- A history. -/
theorem run_refines {M : HeapMd α β} {V : ValMd α β} {wf : Option α → β → Prop} (R : MdRefines M V wf) (ops : List MdOp) :
    ∀ {s : MdState α β} {v : Nat → ValCtx α β}, HeapInv wf s v →
    (valRun V v ops = none → mdRun M s ops = none) ∧
    ∀ t, valRun V v ops = some t →
      ∃ s', mdRun M s ops = some (s', t.2) ∧ HeapInv wf s' t.1 ∧ (MdOwned s → NoLeakingCall V v ops → MdOwned s') := by
  induction ops with
  | nil =>
    intro s v I
    refine ⟨(by simp [valRun]), fun t ht => ?_⟩
    cases ht
    exact ⟨s, rfl, I, fun O _ => O⟩
  | cons o os ih =>
    intro s v I
    obtain ⟨hnone, hsome⟩ := step_refines R I o
    simp only [valRun, mdRun]
    cases hv : valStep V v o with
    | none =>
      rw [hnone hv]
      exact ⟨fun _ => rfl, fun t ht => by cases ht⟩
    | some r =>
      obtain ⟨s', hM, I', O'⟩ := hsome r hv
      rw [hM]
      obtain ⟨h1, h2⟩ := ih I'
      simp only [Option.bind_some]
      cases hr : valRun V r.1 os with
      | none => rw [h1 hr]; exact ⟨fun _ => rfl, fun t ht => by cases ht⟩
      | some t =>
        obtain ⟨s2, hM2, I2, O2⟩ := h2 t hr
        rw [hM2]
        refine ⟨(by simp), fun t' ht => ?_⟩
        cases ht
        exact ⟨s2, rfl, I2, fun O N => O2 (O' O N.1) (N.2 r hv)⟩

theorem heap_start_inv (wf : Option α → β → Prop) : HeapInv wf (mdStart (α := α) (β := β)) valStart :=
  ⟨fun _ h => absurd rfl h, fun _ => trivial, fun _ => rfl, fun _ => rfl, fun _ _ _ _ h => (by cases h), fun _ _ _ h => by cases h⟩

theorem start_owned : MdOwned (mdStart (α := α) (β := β)) := fun _ h => absurd rfl h

/-- The results of a history, with memory and by value. -/
theorem run_eq_val {M : HeapMd α β} {V : ValMd α β} {wf : Option α → β → Prop} (R : MdRefines M V wf) (ops : List MdOp) :
    (mdRun M mdStart ops).map (·.2) = (valRun V valStart ops).map (·.2) := by
  obtain ⟨h1, h2⟩ := run_refines R ops (heap_start_inv wf)
  cases hv : valRun V valStart ops with
  | none => rw [h1 hv]; rfl
  | some t =>
    obtain ⟨s', hM, -, -⟩ := h2 t hv
    rw [hM]; rfl

theorem run_owned {M : HeapMd α β} {V : ValMd α β} {wf : Option α → β → Prop} (R : MdRefines M V wf) {ops : List MdOp}
    {s : MdState α β} {out : List (Int × Bytes)} (hr : mdRun M mdStart ops = some (s, out)) (hN : NoLeakingCall V valStart ops) :
    MdOwned s := by
  obtain ⟨h1, h2⟩ := run_refines R ops (heap_start_inv wf)
  cases hv : valRun V valStart ops with
  | none => rw [h1 hv] at hr; cases hr
  | some t =>
    obtain ⟨s', hM, -, O⟩ := h2 t hv
    rw [hM] at hr
    cases hr
    exact O start_owned hN

/-! ## The two digests -/

theorem omac_refines (X : Crypto) (n : OmacCipher) :
    MdRefines (omacMd X n) (omacVal X n) (fun a f => f.key_set = true → a ≠ none) where
  zero := rfl
  init _ := rfl
  wf_zero := by simp [omacVal, OmacF.zero]
  wf_start := by simp [omacVal, OmacF.zero]
  wf_update a f x r hw h := by
    simp only [omacVal] at h
    by_cases hk : f.key_set = true
    · rw [if_pos hk] at h
      cases a with
      | none => cases h
      | some a => cases h; simp
    · rw [if_neg hk] at h; cases h; exact hw
  wf_ctrl a f c r hw h := by
    cases c with
    | setKey arg key =>
      simp only [omacVal] at h
      split at h <;> cases h <;> simp [OmacF.zero]
    | xofLen l =>
      simp only [omacVal] at h
      cases hc : f.cipher_name with
      | none => rw [hc] at h; cases h
      | some m =>
        rw [hc, Option.map_some] at h
        split at h <;> cases h <;> exact hw
    | tlstree seq =>
      simp only [omacVal] at h
      split at h
      · cases hc : f.cipher_name with
        | none => rw [hc] at h; cases h
        | some m =>
          rw [hc, Option.map_some] at h
          cases ht : gost_tlstree X m f.key seq with
          | none => rw [ht] at h; cases h; exact hw
          | some k => rw [ht] at h; cases h; simp
      · cases h; exact hw
    | keyMesh _ _ => cases h; exact hw
  ctrl_new a f c r hw h hn := by
    cases c with
    | setKey arg key => right; rfl
    | xofLen l =>
      left
      simp only [omacVal] at h
      cases hc : f.cipher_name with
      | none => rw [hc] at h; cases h
      | some m =>
        rw [hc, Option.map_some] at h
        split at h <;> cases h <;> exact hn
    | tlstree seq =>
      left
      simp only [omacVal] at h
      split at h
      · rename_i hk; exact hw hk
      · cases h; exact hn
    | keyMesh _ _ => left; cases h; exact hn
  update_new a f x r hw h ha := by
    simp only [omacVal] at h
    by_cases hk : f.key_set = true
    · exact absurd ha (hw hk)
    · rw [if_neg hk] at h; cases h; exact ha
  update_none h d a f x H hw hn := by
    simp only [omacVal] at hn
    by_cases hk : f.key_set = true
    · cases a with
      | none => exact absurd rfl (hw hk)
      | some a => rw [if_pos hk] at hn; cases hn
    · rw [if_neg hk] at hn; cases hn
  update_some h d a f x r hh H hw hr := by
    simp only [omacVal] at hr
    obtain ⟨dp, df⟩ := d
    have hf : df = f := H.f_eq
    subst hf
    by_cases hk : df.key_set = true
    · cases a with
      | none => exact absurd rfl (hw hk)
      | some a =>
        rw [if_pos hk] at hr; cases hr
        obtain ⟨p, hp, hob⟩ := H.some_ptr
        simp only at hp
        subst hp
        refine ⟨_, _, ?_, abs_write _, local_write hh rfl hob _, noLeak_write rfl _⟩
        simp [omacMd, hOmacUpdate, hk, Heap.deref, hob]
    · rw [if_neg hk] at hr; cases hr
      refine ⟨h, ⟨dp, df⟩, ?_, H, Local.refl hh _, NoLeak.refl _⟩
      simp [omacMd, hOmacUpdate, hk]
  final_none h d a f H hw hn := by
    simp only [omacVal] at hn
    by_cases hk : f.key_set = true
    · cases a with
      | none => exact absurd rfl (hw hk)
      | some a => rw [if_pos hk] at hn; cases hn
    · rw [if_neg hk] at hn; cases hn
  final_some h d a f r hh H hw hr := by
    simp only [omacVal] at hr
    obtain ⟨dp, df⟩ := d
    have hf : df = f := H.f_eq
    subst hf
    refine ⟨h, ⟨dp, df⟩, ?_, ⟨a, df, H⟩, Local.refl hh _, NoLeak.refl _⟩
    by_cases hk : df.key_set = true
    · cases a with
      | none => exact absurd rfl (hw hk)
      | some a =>
        rw [if_pos hk] at hr; cases hr
        obtain ⟨p, hp, hob⟩ := H.some_ptr
        simp only at hp
        subst hp
        simp [omacMd, hOmacFinal, hk, Heap.deref, hob]
    · rw [if_neg hk] at hr; cases hr
      simp [omacMd, hOmacFinal, hk]
  cleanup h d a f hh H := by
    obtain ⟨h', e, L, N, -⟩ := free_facts hh H OmacF.zero
    exact ⟨h', ⟨none, OmacF.zero⟩, (by simp only [omacMd, hOmacCleanup, e, Option.map_some]), Abs.mk_none, L, N⟩
  ctrl_none h d a f c H hw hn := by
    obtain ⟨dp, df⟩ := d
    have hf : df = f := H.f_eq
    subst hf
    cases c with
    | setKey arg key =>
      simp only [omacVal] at hn
      split at hn <;> cases hn
    | xofLen l =>
      simp only [omacVal, Option.map_eq_none_iff] at hn
      simp [omacMd, hOmacCtrl, hn]
    | tlstree seq =>
      simp only [omacVal] at hn
      split at hn
      · rename_i hk
        simp only [Option.map_eq_none_iff] at hn
        simp [omacMd, hOmacCtrl, hn, hk]
      · cases hn
    | keyMesh _ _ => cases hn
  ctrl_some h d a f c r hh H hw hr := by
    obtain ⟨dp, df⟩ := d
    have hf : df = f := H.f_eq
    subst hf
    cases c with
    | setKey arg key =>
      simp only [omacVal] at hr
      by_cases ha : arg = 0 ∨ arg = 32
      · rw [if_pos ha] at hr; cases hr
        refine ⟨(h.alloc { cipher := n, key := key.take 32, data := [] }).1,
          ⟨some (h.alloc { cipher := n, key := key.take 32, data := [] }).2, _⟩, ?_, abs_alloc _, local_alloc hh _, fun hN => ?_⟩
        · simp [omacMd, hOmacCtrl, ha, hOmacKey, hOmacInit, Heap.free]
        · rcases hN with hN | hN
          · cases hN
          · subst hN
            exact noLeak_alloc H.none_ptr _
      · rw [if_neg ha] at hr; cases hr
        refine ⟨h, ⟨none, _⟩, ?_, Abs.mk_none, Local.lose hh _, fun hN => ?_⟩
        · simp [omacMd, hOmacCtrl, ha, hOmacInit]
        · rcases hN with hN | hN
          · cases hN
          · subst hN
            have hp : dp = none := H.none_ptr
            subst hp
            exact NoLeak.refl _
    | xofLen l =>
      simp only [omacVal] at hr
      cases hc : df.cipher_name with
      | none => rw [hc] at hr; cases hr
      | some m =>
        rw [hc, Option.map_some] at hr
        by_cases hl : l < 1 ∨ l > m.block
        · rw [if_pos hl] at hr; cases hr
          exact ⟨h, ⟨dp, df⟩, by simp only [omacMd, hOmacCtrl, hc, if_pos hl], H, Local.refl hh _, fun _ => NoLeak.refl _⟩
        · rw [if_neg hl] at hr; cases hr
          exact ⟨h, ⟨dp, { df with dgst_size := l.toNat }⟩, (by simp only [omacMd, hOmacCtrl, hc, if_neg hl]), ⟨(by simp [hc]), H.ptr⟩, Local.refl hh _,
            fun _ => NoLeak.refl _⟩
    | tlstree seq =>
      simp only [omacVal] at hr
      by_cases hk : df.key_set = true
      · rw [if_pos hk] at hr
        cases hc : df.cipher_name with
        | none => rw [hc] at hr; cases hr
        | some m =>
          rw [hc, Option.map_some] at hr
          cases ht : gost_tlstree X m df.key seq with
          | none =>
            rw [ht] at hr; cases hr
            exact ⟨h, ⟨dp, df⟩, by simp only [omacMd, hOmacCtrl, hc, if_pos hk, ht], H, Local.refl hh _, fun _ => NoLeak.refl _⟩
          | some k =>
            rw [ht] at hr; cases hr
            obtain ⟨h', e, L, N, -⟩ := free_facts hh H df
            simp only at e
            refine ⟨(h'.alloc { cipher := m, key := k.take 32, data := [] }).1,
              ⟨some (h'.alloc { cipher := m, key := k.take 32, data := [] }).2, df⟩, ?_, abs_alloc _, L.trans (local_alloc L.wf _),
              fun _ => N.trans (noLeak_alloc rfl _)⟩
            simp only [omacMd, hOmacCtrl, hc, if_pos hk, ht, hOmacKey, e, Option.map_some]
            rw [← hk, ← hc]
      · rw [if_neg hk] at hr; cases hr
        exact ⟨h, ⟨dp, df⟩, by simp only [omacMd, hOmacCtrl, if_neg hk], H, Local.refl hh _, fun _ => NoLeak.refl _⟩
    | keyMesh _ _ =>
      cases hr
      exact ⟨h, ⟨dp, df⟩, rfl, H, Local.refl hh _, fun _ => NoLeak.refl _⟩
  copy h d a f hh H hw := by
    obtain ⟨dp, df⟩ := d
    have hf : df = f := H.f_eq
    subst hf
    cases a with
    | none =>
      have hp : dp = none := H.none_ptr
      subst hp
      exact ⟨h, ⟨none, df⟩, rfl, H, Local.lose hh _, NoLeak.refl (d := ⟨none, df⟩) _⟩
    | some a =>
      obtain ⟨p, hp, hob⟩ := H.some_ptr
      simp only at hp
      subst hp
      exact ⟨(h.alloc a).1, ⟨some (h.alloc a).2, df⟩, by simp [omacMd, hOmacCopy, hob], abs_alloc _, local_alloc hh _, noLeak_alloc rfl _⟩

theorem mesh_nlast (a : CmacCtx) : (CMAC_ACPKM_Mesh a).nlast_block = a.nlast_block := by
  unfold CMAC_ACPKM_Mesh
  split <;> rfl

theorem update_nlast {a b : CmacCtx} {x : Bytes} (ha : a.nlast_block ≠ none) (h : CMAC_ACPKM_Update a x = some b) : b.nlast_block ≠ none := by
  unfold CMAC_ACPKM_Update at h
  cases hn : a.nlast_block with
  | none => exact absurd hn ha
  | some n =>
    rw [hn] at h
    simp only at h
    split at h
    · cases h; rw [hn]; simp
    · by_cases h0 : 0 < n
      · rw [if_pos h0] at h
        generalize (if List.length x < 16 - n then List.length x else 16 - n) = l at h
        by_cases h1 : (x.drop l).length = 0
        · rw [if_pos h1] at h; cases h; simp
        · rw [if_neg h1] at h; cases h; simp [cmacRest]
      · rw [if_neg h0] at h; cases h; simp [cmacRest]

theorem update_isSome {a : CmacCtx} (x : Bytes) (ha : a.nlast_block ≠ none) : CMAC_ACPKM_Update a x ≠ none := by
  unfold CMAC_ACPKM_Update
  cases hn : a.nlast_block with
  | none => exact absurd hn ha
  | some n =>
    simp only
    split
    · simp
    · by_cases h0 : 0 < n
      · rw [if_pos h0]
        generalize (if List.length x < 16 - n then List.length x else 16 - n) = l
        by_cases h1 : (x.drop l).length = 0
        · rw [if_pos h1]; simp
        · rw [if_neg h1]; simp
      · rw [if_neg h0]; simp

theorem final_isSome {a : CmacCtx} (ha : a.nlast_block ≠ none) : (CMAC_ACPKM_Final a).2 ≠ none := by
  unfold CMAC_ACPKM_Final
  cases hn : a.nlast_block with
  | none => exact absurd hn ha
  | some n => simp

theorem keyMesh_nlast (a : CmacCtx) (N T : Int) : (cmacKeyMesh a N T).1.nlast_block = a.nlast_block := by
  unfold cmacKeyMesh
  split <;> rfl

theorem acpkmCopy_eq {a b : CmacCtx} (ha : a.nlast_block ≠ none) : cmacAcpkmCopy b a = (a, 1) := by
  unfold cmacAcpkmCopy
  cases hn : a.nlast_block with
  | none => exact absurd hn ha
  | some n => rfl

/-- The states of OMAC-ACPKM contexts. -/
def AcpkmOk (a : Option CmacCtx) (f : OmacAcpkmF) : Prop := (f.key_set = true → a ≠ none) ∧ ∀ x, a = some x → x.nlast_block ≠ none

theorem acpkm_refines : MdRefines acpkmMd acpkmVal AcpkmOk where
  zero := rfl
  init _ := rfl
  wf_zero := ⟨by simp [acpkmVal, OmacAcpkmF.zero], fun x h => by cases h⟩
  wf_start := ⟨by simp [acpkmVal], fun x h => by cases h⟩
  wf_update a f x r hw h := by
    simp only [acpkmVal] at h
    by_cases hk : f.key_set = true
    · rw [if_pos hk] at h
      cases a with
      | none => cases h
      | some a =>
        rw [Option.map_some] at h
        cases hu : CMAC_ACPKM_Update a x with
        | none => exact absurd hu (update_isSome x (hw.2 a rfl))
        | some b =>
          rw [hu] at h; cases h
          exact ⟨by simp, fun y hy => by cases hy; exact update_nlast (hw.2 a rfl) hu⟩
    · rw [if_neg hk] at h; cases h; exact hw
  wf_ctrl a f c r hw h := by
    cases c with
    | setKey arg key =>
      simp only [acpkmVal] at h
      split at h <;> cases h
      · exact ⟨by simp, fun y hy => by cases hy; simp [CMAC_ACPKM_Init]⟩
      · exact ⟨by simp, fun y hy => by cases hy⟩
    | xofLen l =>
      simp only [acpkmVal] at h
      split at h
      · split at h <;> cases h <;> exact hw
      · cases h
    | tlstree seq => cases h; exact hw
    | keyMesh N T =>
      simp only [acpkmVal] at h
      split at h
      · cases h; exact hw
      · cases a with
        | none => cases h
        | some a =>
          cases h
          exact ⟨by simp, fun y hy => by cases hy; rw [keyMesh_nlast]; exact hw.2 a rfl⟩
  ctrl_new a f c r hw h hn := by
    cases c with
    | setKey arg key => right; rfl
    | xofLen l =>
      left
      simp only [acpkmVal] at h
      split at h
      · split at h <;> cases h <;> exact hn
      · cases h
    | tlstree seq => left; cases h; exact hn
    | keyMesh N T =>
      left
      simp only [acpkmVal] at h
      split at h
      · cases h; exact hn
      · cases a with
        | none => cases h
        | some a => simp
  update_new a f x r hw h ha := by
    simp only [acpkmVal] at h
    by_cases hk : f.key_set = true
    · exact absurd ha (hw.1 hk)
    · rw [if_neg hk] at h; cases h; exact ha
  update_none h d a f x H hw hn := by
    simp only [acpkmVal] at hn
    by_cases hk : f.key_set = true
    · cases a with
      | none => exact absurd rfl (hw.1 hk)
      | some a => rw [if_pos hk] at hn; cases hn
    · rw [if_neg hk] at hn; cases hn
  update_some h d a f x r hh H hw hr := by
    simp only [acpkmVal] at hr
    obtain ⟨dp, df⟩ := d
    have hf : df = f := H.f_eq
    subst hf
    by_cases hk : df.key_set = true
    · cases a with
      | none => exact absurd rfl (hw.1 hk)
      | some a =>
        obtain ⟨p, hp, hob⟩ := H.some_ptr
        simp only at hp
        subst hp
        rw [if_pos hk, Option.map_some] at hr
        cases hu : CMAC_ACPKM_Update a x with
        | none => exact absurd hu (update_isSome x (hw.2 a rfl))
        | some b =>
          rw [hu] at hr; cases hr
          refine ⟨_, _, ?_, abs_write _, local_write hh rfl hob _, noLeak_write rfl _⟩
          simp [acpkmMd, hAcpkmUpdate, hk, Heap.deref, hob, hu]
    · rw [if_neg hk] at hr; cases hr
      refine ⟨h, ⟨dp, df⟩, ?_, H, Local.refl hh _, NoLeak.refl _⟩
      simp [acpkmMd, hAcpkmUpdate, hk]
  final_none h d a f H hw hn := by
    simp only [acpkmVal] at hn
    by_cases hk : f.key_set = true
    · cases a with
      | none => exact absurd rfl (hw.1 hk)
      | some a =>
        rw [if_pos hk, Option.bind_some, Option.map_eq_none_iff] at hn
        exact absurd hn (final_isSome (hw.2 a rfl))
    · rw [if_neg hk] at hn; cases hn
  final_some h d a f r hh H hw hr := by
    simp only [acpkmVal] at hr
    obtain ⟨dp, df⟩ := d
    have hf : df = f := H.f_eq
    subst hf
    by_cases hk : df.key_set = true
    · cases a with
      | none => exact absurd rfl (hw.1 hk)
      | some a =>
        obtain ⟨p, hp, hob⟩ := H.some_ptr
        simp only at hp
        subst hp
        rw [if_pos hk, Option.bind_some] at hr
        cases hu : (CMAC_ACPKM_Final a).2 with
        | none => exact absurd hu (final_isSome (hw.2 a rfl))
        | some mac =>
          rw [hu, Option.map_some] at hr; cases hr
          refine ⟨h.write p (CMAC_ACPKM_Final a).1, ⟨some p, df⟩, ?_, ⟨_, _, abs_write _⟩, local_write hh rfl hob _, noLeak_write rfl _⟩
          simp [acpkmMd, hAcpkmFinal, hk, Heap.deref, hob, hu]
    · rw [if_neg hk] at hr; cases hr
      refine ⟨h, ⟨dp, df⟩, ?_, ⟨a, df, H⟩, Local.refl hh _, NoLeak.refl _⟩
      simp [acpkmMd, hAcpkmFinal, hk]
  cleanup h d a f hh H := by
    obtain ⟨h', e, L, N, -⟩ := free_facts hh H OmacAcpkmF.zero
    exact ⟨h', ⟨none, OmacAcpkmF.zero⟩, (by simp only [acpkmMd, hAcpkmCleanup, e, Option.map_some]), Abs.mk_none, L, N⟩
  ctrl_none h d a f c H hw hn := by
    obtain ⟨dp, df⟩ := d
    have hf : df = f := H.f_eq
    subst hf
    cases c with
    | setKey arg key =>
      simp only [acpkmVal] at hn
      split at hn <;> cases hn
    | xofLen l =>
      simp only [acpkmVal] at hn
      split at hn
      · split at hn <;> cases hn
      · rename_i hk; simp [acpkmMd, hAcpkmCtrl, hk]
    | tlstree seq => cases hn
    | keyMesh N T =>
      simp only [acpkmVal] at hn
      split at hn
      · cases hn
      · rename_i hk
        cases a with
        | some a => cases hn
        | none =>
          have hp : dp = none := H.none_ptr
          subst hp
          simp only [acpkmMd, hAcpkmCtrl, if_neg hk]
  ctrl_some h d a f c r hh H hw hr := by
    obtain ⟨dp, df⟩ := d
    have hf : df = f := H.f_eq
    subst hf
    cases c with
    | setKey arg key =>
      simp only [acpkmVal] at hr
      by_cases ha : arg = 0 ∨ arg = 32
      · rw [if_pos ha] at hr; cases hr
        refine ⟨(h.alloc (CMAC_ACPKM_Init CMAC_ACPKM_CTX_new key)).1,
          ⟨some (h.alloc (CMAC_ACPKM_Init CMAC_ACPKM_CTX_new key)).2, _⟩, ?_, abs_alloc _, local_alloc hh _, fun hN => ?_⟩
        · simp only [acpkmMd, hAcpkmCtrl, if_pos ha, hAcpkmKey, hAcpkmInit]
        · rcases hN with hN | hN
          · cases hN
          · subst hN
            exact noLeak_alloc H.none_ptr _
      · rw [if_neg ha] at hr; cases hr
        refine ⟨h, ⟨none, _⟩, ?_, Abs.mk_none, Local.lose hh _, fun hN => ?_⟩
        · simp only [acpkmMd, hAcpkmCtrl, if_neg ha, hAcpkmInit]
        · rcases hN with hN | hN
          · cases hN
          · subst hN
            have hp : dp = none := H.none_ptr
            subst hp
            exact NoLeak.refl _
    | xofLen l =>
      simp only [acpkmVal] at hr
      by_cases hk : df.named = true
      · rw [if_pos hk] at hr
        by_cases hl : l < 1 ∨ l > 16
        · rw [if_pos hl] at hr; cases hr
          exact ⟨h, ⟨dp, df⟩, (by simp only [acpkmMd, hAcpkmCtrl, hk, if_pos hl]; rfl), H, Local.refl hh _, fun _ => NoLeak.refl _⟩
        · rw [if_neg hl] at hr; cases hr
          exact ⟨h, ⟨dp, { df with dgst_size := l.toNat }⟩, (by simp only [acpkmMd, hAcpkmCtrl, hk, if_neg hl]; rfl), ⟨rfl, H.ptr⟩,
            Local.refl hh _, fun _ => NoLeak.refl _⟩
      · rw [if_neg hk] at hr; cases hr
    | tlstree seq => cases hr; exact ⟨h, ⟨dp, df⟩, rfl, H, Local.refl hh _, fun _ => NoLeak.refl _⟩
    | keyMesh N T =>
      simp only [acpkmVal] at hr
      by_cases hl : N = 0 ∨ N.tmod 16 ≠ 0
      · rw [if_pos hl] at hr; cases hr
        exact ⟨h, ⟨dp, df⟩, (by simp only [acpkmMd, hAcpkmCtrl, if_pos hl]), H, Local.refl hh _, fun _ => NoLeak.refl _⟩
      · rw [if_neg hl] at hr
        cases a with
        | none => cases hr
        | some a =>
          rw [Option.map_some] at hr
          cases hr
          obtain ⟨p, hp, hob⟩ := H.some_ptr
          simp only at hp
          subst hp
          refine ⟨h.write p (cmacKeyMesh a N T).1, ⟨some p, df⟩, ?_, abs_write _, local_write hh rfl hob _, fun _ => noLeak_write rfl _⟩
          simp only [acpkmMd, hAcpkmCtrl, if_neg hl, Heap.deref, Option.bind_some, hob]
  copy h d a f hh H hw := by
    obtain ⟨dp, df⟩ := d
    have hf : df = f := H.f_eq
    subst hf
    cases a with
    | none =>
      have hp : dp = none := H.none_ptr
      subst hp
      exact ⟨h, ⟨none, df⟩, rfl, H, Local.lose hh _, NoLeak.refl (d := ⟨none, df⟩) _⟩
    | some a =>
      obtain ⟨p, hp, hob⟩ := H.some_ptr
      simp only at hp
      subst hp
      refine ⟨(h.alloc a).1, ⟨some (h.alloc a).2, df⟩, ?_, abs_alloc _, local_alloc hh _, noLeak_alloc rfl _⟩
      simp [acpkmMd, hAcpkmCopy, hob, acpkmCopy_eq (hw.2 a rfl)]

/-! ## The theorems -/

/-- **C65** OMAC (Magma and Kuznyechik MAC digests): for every history of EVP calls over any number of contexts — initialising, setting
keys, TLSTREE, MAC sizes, feeding data, reading MACs, copying, resetting, in any order — the code does nothing undefined (use of freed
memory, double free, NULL) unless the specification by value forbids the call, and every call returns what the specification says. -/
theorem C65_omac_history_by_value (X : Crypto) (n : OmacCipher) (ops : List MdOp) :
    (mdRun (omacMd X n) mdStart ops).map (·.2) = (valRun (omacVal X n) valStart ops).map (·.2) :=
  run_eq_val (omac_refines X n) ops

/-- **C65** The same for OMAC-ACPKM. -/
theorem C65_omac_acpkm_history_by_value (ops : List MdOp) :
    (mdRun acpkmMd mdStart ops).map (·.2) = (valRun acpkmVal valStart ops).map (·.2) :=
  run_eq_val acpkm_refines ops

/-- **C65** If no call of the history is one of those described by `LeakingCall`, all memory that is not freed belongs to a context. -/
theorem C65_omac_no_leak (X : Crypto) (n : OmacCipher) (ops : List MdOp) (s : MdState CmacObj OmacF) (out : List (Int × Bytes))
    (hr : mdRun (omacMd X n) mdStart ops = some (s, out)) (hN : NoLeakingCall (omacVal X n) valStart ops)
    (q : Nat) (hq : s.heap.obj q ≠ none) : ∃ i d, (s.ctx i).data = some d ∧ d.ptr = some q := by
  obtain ⟨i, hi⟩ := run_owned (omac_refines X n) hr hN q hq
  unfold EvpMdCtx.own at hi
  rw [Option.bind_eq_some_iff] at hi
  exact ⟨i, hi⟩

/-- **C65** The same for OMAC-ACPKM. -/
theorem C65_omac_acpkm_no_leak (ops : List MdOp) (s : MdState CmacCtx OmacAcpkmF) (out : List (Int × Bytes))
    (hr : mdRun acpkmMd mdStart ops = some (s, out)) (hN : NoLeakingCall acpkmVal valStart ops)
    (q : Nat) (hq : s.heap.obj q ≠ none) : ∃ i d, (s.ctx i).data = some d ∧ d.ptr = some q := by
  obtain ⟨i, hi⟩ := run_owned acpkm_refines hr hN q hq
  unfold EvpMdCtx.own at hi
  rw [Option.bind_eq_some_iff] at hi
  exact ⟨i, hi⟩

/-! ## Contexts do not influence each other -/

/-- The context a call changes. -/
def MdOp.changes : MdOp → Nat
  | .init i | .ctrl i _ | .update i _ | .final i | .reset i => i
  | .copy _ j => j

/-- The call uses only the context `j`. -/
def MdOp.On (j : Nat) : MdOp → Prop
  | .init i | .ctrl i _ | .update i _ | .final i | .reset i => i = j
  | .copy _ _ => False

theorem val_other (V : ValMd α β) {v : Nat → ValCtx α β} {o : MdOp} {r} (h : valStep V v o = some r) {j : Nat} (hj : o.changes ≠ j) :
    r.1 j = v j := by
  have set : ∀ (i : Nat) (e : ValCtx α β), i ≠ j → setCtx v i e j = v j := fun i e hi => by simp [setCtx, Ne.symm hi]
  cases o with
  | init i =>
    simp only [valStep] at h
    split at h <;> cases h <;> exact set i _ hj
  | ctrl i c =>
    simp only [valStep] at h
    split at h
    · cases h; rfl
    · rw [Option.map_eq_some_iff] at h
      obtain ⟨x, -, hx⟩ := h
      cases hx
      exact set i _ hj
  | update i x =>
    simp only [valStep] at h
    split at h
    · cases h; rfl
    · split at h
      · cases h
      · rw [Option.map_eq_some_iff] at h
        obtain ⟨x, -, hx⟩ := h
        cases hx
        exact set i _ hj
  | final i =>
    simp only [valStep] at h
    split at h
    · cases h
    · rw [Option.map_eq_some_iff] at h
      obtain ⟨x, -, hx⟩ := h
      cases hx
      exact set i _ hj
  | copy i k =>
    simp only [valStep] at h
    split at h
    · cases h
    · split at h
      · cases h; rfl
      · cases h; exact set k _ hj
  | reset i => cases h; exact set i _ hj

theorem val_run_other (V : ValMd α β) {ops : List MdOp} : ∀ {v : Nat → ValCtx α β} {t} (_ : valRun V v ops = some t) {j : Nat}
    (_ : ∀ o ∈ ops, o.changes ≠ j), t.1 j = v j := by
  induction ops with
  | nil => intro v t h j _; cases h; rfl
  | cons o os ih =>
    intro v t h j hj
    simp only [valRun, Option.bind_eq_some_iff, Option.map_eq_some_iff] at h
    obtain ⟨r, hr, u, hu, he⟩ := h
    cases he
    rw [ih hu (fun o ho => hj o (List.mem_cons_of_mem _ ho)), val_other V hr (hj o List.mem_cons_self)]

/-- A call on one context depends on that context only. -/
theorem val_on (V : ValMd α β) {v w : Nat → ValCtx α β} {o : MdOp} {j : Nat} (ho : o.On j) (hj : v j = w j) :
    (valStep V v o).map (fun r => (r.1 j, r.2)) = (valStep V w o).map (fun r => (r.1 j, r.2)) := by
  cases o with
  | init i =>
    cases ho
    simp only [valStep, hj]
    split <;> simp [setCtx]
  | ctrl i c =>
    cases ho
    simp only [valStep, hj]
    split
    · simp [hj]
    · cases V.ctrl _ _ c <;> simp [setCtx]
  | update i x =>
    cases ho
    simp only [valStep, hj]
    split
    · simp [hj]
    · split
      · rfl
      · cases V.update _ _ x <;> simp [setCtx]
  | final i =>
    cases ho
    simp only [valStep, hj]
    split
    · rfl
    · cases V.final _ _ <;> simp [setCtx]
  | copy i k => exact ho.elim
  | reset i => cases ho; simp [valStep, setCtx]

theorem val_run_on (V : ValMd α β) {ops : List MdOp} : ∀ {v w : Nat → ValCtx α β} {j : Nat} (_ : ∀ o ∈ ops, o.On j) (_ : v j = w j),
    (valRun V v ops).map (·.2) = (valRun V w ops).map (·.2) := by
  induction ops with
  | nil => intro v w j _ _; rfl
  | cons o os ih =>
    intro v w j ho hj
    have hs := val_on V (ho o List.mem_cons_self) hj
    simp only [valRun]
    cases h1 : valStep V v o with
    | none =>
      rw [h1] at hs
      cases h2 : valStep V w o with
      | none => rfl
      | some r => rw [h2] at hs; cases hs
    | some r =>
      rw [h1] at hs
      cases h2 : valStep V w o with
      | none => rw [h2] at hs; cases hs
      | some r' =>
        rw [h2] at hs
        simp only [Option.map_some, Option.some.injEq, Prod.mk.injEq] at hs
        have := ih (fun o h => ho o (List.mem_cons_of_mem _ h)) hs.1
        simp only [Option.bind_some, Option.map_map]
        have e := congrArg (Option.map (fun t => r.2 :: t)) this
        simp only [Option.map_map] at e
        rw [show ((fun t => t.2) ∘ fun t => (t.1, r'.2 :: t.2) : ((Nat → ValCtx α β) × List (Int × Bytes)) → List (Int × Bytes)) =
          ((fun t => r'.2 :: t) ∘ fun x => x.2) from rfl, ← hs.2]
        exact e

theorem val_append (V : ValMd α β) (xs ys : List MdOp) : ∀ (v : Nat → ValCtx α β),
    valRun V v (xs ++ ys) = (valRun V v xs).bind fun t => (valRun V t.1 ys).map fun u => (u.1, t.2 ++ u.2) := by
  induction xs with
  | nil => intro v; simp [valRun]
  | cons o os ih =>
    intro v
    simp only [List.cons_append, valRun]
    cases valStep V v o with
    | none => rfl
    | some r =>
      simp only [Option.bind_some, ih]
      cases valRun V r.1 os with
      | none => rfl
      | some t =>
        simp only [Option.bind_some, Option.map_some]
        cases valRun V t.1 ys <;> rfl

theorem interleave {M : HeapMd α β} {V : ValMd α β} {wf : Option α → β → Prop} (R : MdRefines M V wf) {pre qs rs : List MdOp} {j : Nat}
    (hq : ∀ o ∈ qs, o.changes ≠ j) (hr : ∀ o ∈ rs, o.On j) {s : MdState α β} {a b c : List (Int × Bytes)}
    (h : mdRun M mdStart (pre ++ qs ++ rs) = some (s, a ++ b ++ c)) (ha : a.length = pre.length) (hb : b.length = qs.length) :
    ∃ s', mdRun M mdStart (pre ++ rs) = some (s', a ++ c) := by
  have len : ∀ (ops : List MdOp) (v : Nat → ValCtx α β) t, valRun V v ops = some t → t.2.length = ops.length := by
    intro ops
    induction ops with
    | nil => intro v t h; cases h; rfl
    | cons o os ih =>
      intro v t h
      simp only [valRun, Option.bind_eq_some_iff, Option.map_eq_some_iff] at h
      obtain ⟨r, hr, u, hu, he⟩ := h
      cases he
      simp [ih _ _ hu]
  have e1 := run_eq_val R (pre ++ qs ++ rs)
  have e2 := run_eq_val R (pre ++ rs)
  rw [h, Option.map_some, val_append, val_append] at e1
  rw [val_append] at e2
  cases h1 : valRun V valStart pre with
  | none => rw [h1] at e1; cases e1
  | some t1 =>
    rw [h1] at e1 e2
    simp only [Option.bind_some] at e1 e2
    cases h2 : valRun V t1.1 qs with
    | none => rw [h2] at e1; cases e1
    | some t2 =>
      rw [h2] at e1
      simp only [Option.map_some, Option.bind_some] at e1
      have hj := val_run_other V h2 hq
      have hon := val_run_on V hr hj
      cases h3 : valRun V t2.1 rs with
      | none => rw [h3] at e1; cases e1
      | some t3 =>
        rw [h3] at e1 hon
        simp only [Option.map_some, Option.some.injEq] at e1
        cases h4 : valRun V t1.1 rs with
        | none => rw [h4] at hon; cases hon
        | some t4 =>
          rw [h4] at hon e2
          simp only [Option.map_some, Option.some.injEq] at hon e2
          have l1 := len _ _ _ h1
          have l2 := len _ _ _ h2
          have := List.append_inj e1 (by simp [l1, l2, ha, hb])
          have h12 := List.append_inj this.1 (by rw [ha, l1])
          rw [Option.map_eq_some_iff] at e2
          obtain ⟨x, hx, hx2⟩ := e2
          refine ⟨x.1, ?_⟩
          rw [hx, h12.1, this.2, hon, ← hx2]

/-- **C65** Contexts are independent: after any history `pre` (for instance one ending in a copy from or to the context `j`), calls `qs`
that only change other contexts — feeding, finishing or resetting the context it was copied from — have no influence on what calls on
`j` return: they return the same when `qs` is left out. -/
theorem C65_omac_contexts_independent (X : Crypto) (n : OmacCipher) (pre qs rs : List MdOp) (j : Nat)
    (hq : ∀ o ∈ qs, o.changes ≠ j) (hr : ∀ o ∈ rs, o.On j) (s : MdState CmacObj OmacF) (a b c : List (Int × Bytes))
    (h : mdRun (omacMd X n) mdStart (pre ++ qs ++ rs) = some (s, a ++ b ++ c)) (ha : a.length = pre.length) (hb : b.length = qs.length) :
    ∃ s', mdRun (omacMd X n) mdStart (pre ++ rs) = some (s', a ++ c) :=
  interleave (omac_refines X n) hq hr h ha hb

/-- **C65** The same for OMAC-ACPKM. -/
theorem C65_omac_acpkm_contexts_independent (pre qs rs : List MdOp) (j : Nat)
    (hq : ∀ o ∈ qs, o.changes ≠ j) (hr : ∀ o ∈ rs, o.On j) (s : MdState CmacCtx OmacAcpkmF) (a b c : List (Int × Bytes))
    (h : mdRun acpkmMd mdStart (pre ++ qs ++ rs) = some (s, a ++ b ++ c)) (ha : a.length = pre.length) (hb : b.length = qs.length) :
    ∃ s', mdRun acpkmMd mdStart (pre ++ rs) = some (s', a ++ c) :=
  interleave acpkm_refines hq hr h ha hb

/-! ## Leaks -/

/-- **C65** (what the code does) The history "set a key, set another key, reset" leaves an object allocated that no context points to. -/
theorem C65_omac_second_key_leaks (X : Crypto) (n : OmacCipher) (k₁ k₂ : Bytes) :
    ∃ s out, mdRun (omacMd X n) mdStart [.init 0, .ctrl 0 (.setKey 32 k₁), .ctrl 0 (.setKey 32 k₂), .reset 0] = some (s, out) ∧
      (∀ i, (s.ctx i).data = none) ∧ s.heap.obj 0 = some { cipher := n, key := k₁.take 32, data := [] } :=
  ⟨_, _, rfl, fun i => by by_cases h : i = 0 <;> simp [setCtx, h, mdStart], rfl⟩

/-- **C65** (what the code does) The same for OMAC-ACPKM. -/
theorem C65_omac_acpkm_second_key_leaks (k₁ k₂ : Bytes) :
    ∃ s out, mdRun acpkmMd mdStart [.init 0, .ctrl 0 (.setKey 32 k₁), .ctrl 0 (.setKey 32 k₂), .reset 0] = some (s, out) ∧
      (∀ i, (s.ctx i).data = none) ∧ s.heap.obj 0 = some (CMAC_ACPKM_Init CMAC_ACPKM_CTX_new k₁) :=
  ⟨_, _, rfl, fun i => by by_cases h : i = 0 <;> simp [setCtx, h, mdStart], rfl⟩

/-- **C65** (what the code does) A key set after the MAC was read (without a new initialisation) leaks at reset. -/
theorem C65_omac_key_after_final_leaks (X : Crypto) (n : OmacCipher) (k₁ k₂ : Bytes) :
    ∃ s out, mdRun (omacMd X n) mdStart
        [.init 0, .ctrl 0 (.setKey 32 k₁), .final 0, .ctrl 0 (.setKey 32 k₂), .reset 0] = some (s, out) ∧
      (∀ i, (s.ctx i).data = none) ∧ s.heap.obj 1 = some { cipher := n, key := k₂.take 32, data := [] } :=
  ⟨_, _, rfl, fun i => by by_cases h : i = 0 <;> simp [setCtx, h, mdStart], rfl⟩

/-! ## Examples -/

/-- Two contexts, one a copy of the other taken in the middle; both go on with different data; both MACs are right and nothing is left. -/
example (X : Crypto) (n : OmacCipher) (k : Bytes) :
    let ops : List MdOp := [.init 0, .ctrl 0 (.setKey 32 k), .update 0 [1, 2], .copy 0 1, .update 0 [3], .update 1 [4], .final 0, .final 1,
      .reset 0, .reset 1]
    NoLeakingCall (omacVal X n) valStart ops ∧
    ∃ s, mdRun (omacMd X n) mdStart ops = some (s, [(1, []), (1, []), (1, []), (1, []), (1, []), (1, []),
      (1, (X.cmac n (k.take 32) [1, 2, 3]).take n.block), (1, (X.cmac n (k.take 32) [1, 2, 4]).take n.block), (1, []), (1, [])]) ∧
      ∀ q, s.heap.obj q = none := by
  refine ⟨?_, _, rfl, ?_⟩
  · refine ⟨id, fun r h => ?_⟩; cases h
    refine ⟨(by rintro ⟨a, f, h⟩; cases h), fun r h => ?_⟩; cases h
    refine ⟨id, fun r h => ?_⟩; cases h
    refine ⟨(by rintro ⟨_, _, h, _⟩; cases h), fun r h => ?_⟩; cases h
    refine ⟨id, fun r h => ?_⟩; cases h
    refine ⟨id, fun r h => ?_⟩; cases h
    refine ⟨id, fun r h => ?_⟩; cases h
    refine ⟨id, fun r h => ?_⟩; cases h
    refine ⟨(by rintro ⟨_, a, f, h⟩; cases h), fun r h => ?_⟩; cases h
    refine ⟨(by rintro ⟨_, a, f, h⟩; cases h), fun r h => ?_⟩; cases h
    trivial
  · intro q
    by_cases h0 : q = 0 <;> by_cases h1 : q = 1 <;> simp [Heap.write, Heap.alloc, mdStart, h0, h1]

end Gost
