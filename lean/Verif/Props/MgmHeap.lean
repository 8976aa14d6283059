import Verif.Lemmas.MgmHeap
import Verif.Props.Mgm

/-!
# C67: copies of MGM contexts

The specification keeps every context *by value*: a copy is a copy of the value and nothing is shared.  The code keeps two pointers in the
data of a context, and `EVP_CIPHER_CTX_copy` copies them as they are: the copy of a context goes on using the key schedule inside the
*original* and points at the IV buffer of the *original*.
-/

namespace Gost.Spec

variable {alg : MgmAlg}

/-- A context just after the cipher was set. -/
def mgmValNew (ks0 : alg.KS) : MgmCtx alg where
  ks := ks0
  key_set := false
  iv_set := false
  mgm := gost_mgm128_init alg.bl
  iv := zeros 16
  ivlen := alg.bl
  taglen := -1
  buf := zeros 32
  encrypting := false

/-- The contexts by value: `none` freed, `some none` without a cipher. -/
abbrev MgmVals (alg : MgmAlg) : Type := Nat → Option (Option (MgmCtx alg))

/-- One call on values; `none`: the caller uses a freed context, or copies a context to itself. -/
def mgmValStep (ks0 : alg.KS) (v : MgmVals alg) : MgmCall → Option (MgmVals alg × Int × Bytes)
  | .init i key iv enc =>
    (v i).map fun c => (setCtx v i (some (some (cipher_init_mgm (c.getD (mgmValNew ks0)) key iv enc))), 1, [])
  | .update i out x =>
    match v i with
    | none => none
    | some none => some (v, 0, [])
    | some (some c) =>
      let r := cipher_do_mgm c out (some x)
      some (setCtx v i (some (some r.1)), r.2.2, r.2.1)
  | .final i out =>
    match v i with
    | none => none
    | some none => some (v, 0, [])
    | some (some c) =>
      let r := cipher_do_mgm c out none
      some (setCtx v i (some (some r.1)), r.2.2, r.2.1)
  | .setIvlen i arg =>
    match v i with
    | none => none
    | some none => some (v, 0, [])
    | some (some c) => some (setCtx v i (some (some (mgm_ctrl_set_ivlen c arg).1)), (mgm_ctrl_set_ivlen c arg).2, [])
  | .setTag i arg tag =>
    match v i with
    | none => none
    | some none => some (v, 0, [])
    | some (some c) => some (setCtx v i (some (some (mgm_ctrl_set_tag c arg tag).1)), (mgm_ctrl_set_tag c arg tag).2, [])
  | .getTag i arg =>
    match v i with
    | none => none
    | some none => some (v, 0, [])
    | some (some c) =>
      match mgm_ctrl_get_tag c arg with
      | none => some (v, 0, [])
      | some t => some (v, 1, t)
  | .copy i j =>
    if i = j then none
    else
      match v i, v j with
      | some none, some _ => some (v, 0, [])
      | some (some c), some _ => some (setCtx v j (some (some c)), 1, [])
      | _, _ => none
  | .reset i => (v i).map fun _ => (setCtx v i (some none), 1, [])
  | .free i => (v i).map fun _ => (setCtx v i none, 1, [])

/-- A history of calls. -/
def mgmValRun (ks0 : alg.KS) : MgmVals alg → List MgmCall → Option (MgmVals alg × List (Int × Bytes))
  | v, [] => some (v, [])
  | v, o :: os => (mgmValStep ks0 v o).bind fun r => (mgmValRun ks0 r.1 os).map fun t => (t.1, r.2 :: t.2)

/-- Before anything happened. -/
def mgmValStart : MgmVals alg := fun _ => some none

/-- Who uses whose memory: `keyOf i = some r`: the key of context `i` is (a copy of) the key of context `r` and was not set since; `copied i`:
context `i` was made by a copy and not reset since. -/
structure Borrow where
  keyOf : Nat → Option Nat
  copied : Nat → Bool

/-- Nobody. -/
def Borrow.start : Borrow := { keyOf := fun _ => none, copied := fun _ => false }

/-- No context uses the key of context `i`. -/
def Borrow.Unused (b : Borrow) (i : Nat) : Prop := ∀ j, b.keyOf j ≠ some i

/-- After a call. -/
def Borrow.step (b : Borrow) (v : MgmVals alg) : MgmCall → Borrow
  | .init i (some _) _ _ => { b with keyOf := setCtx b.keyOf i none }
  | .copy i j =>
    match v i with
    | some (some _) => { keyOf := setCtx b.keyOf j (some ((b.keyOf i).getD i)), copied := setCtx b.copied j true }
    | _ => b
  | .reset i => { keyOf := setCtx b.keyOf i none, copied := setCtx b.copied i false }
  | .free i => { keyOf := setCtx b.keyOf i none, copied := setCtx b.copied i false }
  | _ => b

/-- The calls that respect who uses whose memory: a context whose key is in use by a copy is given no new key, is not reset, freed or
overwritten by a copy; a copy is not initialised with an IV alone before it has a key, or with a key alone while it has an IV; and for
Kuznyechik (`freesIv`) a copy is never reset, freed or overwritten. -/
def Borrow.Ok (freesIv : Bool) (b : Borrow) (v : MgmVals alg) : MgmCall → Prop
  | .init i key iv _ =>
    (key ≠ none → b.Unused i) ∧
    (b.copied i = true → ∀ c, v i = some (some c) →
      (key ≠ none → iv = none → c.iv_set = false) ∧ (key = none → iv ≠ none → c.key_set = true))
  | .copy i j => v i ≠ some none → b.Unused j ∧ (freesIv = true → b.copied j = false)
  | .reset i => b.Unused i ∧ (freesIv = true → b.copied i = false)
  | .free i => b.Unused i ∧ (freesIv = true → b.copied i = false)
  | _ => True

/-- A history of such calls. -/
def Borrow.OkRun (freesIv : Bool) (ks0 : alg.KS) : Borrow → MgmVals alg → List MgmCall → Prop
  | _, _, [] => True
  | b, v, o :: os => b.Ok freesIv v o ∧ ∀ r, mgmValStep ks0 v o = some r → Borrow.OkRun freesIv ks0 (b.step v o) r.1 os

/-- A call that is no copy. -/
def IsCopy : MgmCall → Prop
  | .copy _ _ => True
  | _ => False

end Gost.Spec

namespace Gost

open Spec

variable {alg : MgmAlg}

/-! ## Representation -/

/-- The value of a context: its own key schedule and the IV `iv`. -/
def mgmViewIv (e : EvpMgm) (d : MgmData alg) (iv : Bytes) : MgmCtx alg := { mgmView e d d.ks with iv := iv }

/-- The data `d` at `p` of the context `i` stand for a value whose IV is `iv`. -/
structure MgmRep (s : MgmMem alg) (b : Borrow) (i : Nat) (e : EvpMgm) (p : Nat) (d : MgmData alg) (iv : Bytes) : Prop where
  iv : b.copied i = false → d.iv = i ∧ e.iv = iv
  key : d.key_set = true → ∃ q k, d.key = some q ∧ s.heap.obj q = some k ∧ k.ks = d.ks ∧ (b.keyOf i = none → q = p) ∧
    (∀ r, b.keyOf i = some r → s.dp r = some q)

/-- The memory stands for the values. -/
structure MgmRel (s : MgmMem alg) (v : MgmVals alg) (b : Borrow) : Prop where
  mem : MemWf s
  dead : ∀ i, s.ctx i = none → v i = none ∧ b.keyOf i = none ∧ b.copied i = false
  idle : ∀ i e, s.ctx i = some e → e.data = none → v i = some none ∧ e = EvpMgm.zero ∧ b.keyOf i = none ∧ b.copied i = false
  busy : ∀ i e p d, s.ctx i = some e → e.data = some p → s.heap.obj p = some d →
    ∃ iv, v i = some (some (mgmViewIv e d iv)) ∧ MgmRep s b i e p d iv
  borrow : ∀ i r, b.keyOf i = some r → r ≠ i ∧ b.keyOf r = none

theorem relStart : MgmRel (mgmMemStart (alg := alg)) mgmValStart Borrow.start where
  mem := memStart_wf
  dead i h := by cases h
  idle i e h _ := by cases h; exact ⟨rfl, rfl, rfl, rfl⟩
  busy i e p d h hp := by cases h; cases hp
  borrow i r h := by cases h

/-- A call that changes only the context `i` and its data. -/
theorem rel_own {s : MgmMem alg} {v : MgmVals alg} {b b' : Borrow} (R : MgmRel s v b) {i p : Nat} {e e' : EvpMgm} {d d' : MgmData alg} {iv' : Bytes}
    (he : s.ctx i = some e) (hp : e.data = some p) (hd : s.heap.obj p = some d) (hp' : e'.data = some p) (hiv : d'.iv = d.iv)
    (hkeep : ∀ j, j ≠ i → b'.keyOf j = b.keyOf j) (hki : b'.keyOf i = b.keyOf i ∨ b'.keyOf i = none) (hcop : b'.copied = b.copied)
    (hks : d'.ks = d.ks ∨ b.Unused i)
    (hrep : MgmRep { ctx := setCtx s.ctx i (some e'), heap := s.heap.write p d' } b' i e' p d' iv') :
    MgmRel { ctx := setCtx s.ctx i (some e'), heap := s.heap.write p d' } (setCtx v i (some (some (mgmViewIv e' d' iv')))) b' := by
  have hdpi : s.dp i = some p := dp_of he hp
  have hdp : ∀ k, (MgmMem.mk (setCtx s.ctx i (some e')) (s.heap.write p d')).dp k = s.dp k := fun k => dp_keep he (by rw [hp, hp']) k
  refine ⟨(MemChange.write hdp p d d' hd rfl hiv).memWf R.mem, ?_, ?_, ?_, ?_⟩
  · intro j hj
    have hji : j ≠ i := by intro h; subst h; simp [setCtx] at hj
    simp only [setCtx, if_neg hji] at hj ⊢
    rw [hkeep j hji, hcop]
    exact R.dead j hj
  · intro j f hj hf
    have hji : j ≠ i := by intro h; subst h; simp only [setCtx, if_true] at hj; cases hj; rw [hp'] at hf; cases hf
    simp only [setCtx, if_neg hji] at hj ⊢
    rw [hkeep j hji, hcop]
    exact R.idle j f hj hf
  · intro j f q dq hj hq hdq
    by_cases hji : j = i
    · subst hji
      simp only [setCtx, if_true] at hj
      cases hj
      rw [hp'] at hq; cases hq
      simp only [Heap.write, if_true] at hdq
      cases hdq
      exact ⟨iv', by simp [setCtx], hrep⟩
    · simp only [setCtx, if_neg hji] at hj ⊢
      have hdpj := dp_of hj hq
      have hqp : q ≠ p := by intro h; subst h; exact hji (R.mem.inj j i q hdpj hdpi)
      simp only [Heap.write, if_neg hqp] at hdq
      obtain ⟨iv, hv, rep⟩ := R.busy j f q dq hj hq hdq
      refine ⟨iv, hv, ⟨?_, ?_⟩⟩
      · rw [hcop]; exact rep.iv
      · intro hks'
        obtain ⟨a, k, h1, h2, h3, h4, h5⟩ := rep.key hks'
        rw [hkeep j hji]
        by_cases hap : a = p
        · subst hap
          rw [hd] at h2; cases h2
          refine ⟨a, d', h1, by simp [Heap.write], ?_, h4, fun r hr => (hdp r).trans (h5 r hr)⟩
          rcases hks with hks | hks
          · rw [hks]; exact h3
          · cases hkj : b.keyOf j with
            | none => exact absurd (h4 hkj).symm hqp
            | some r =>
              have := R.mem.inj r i a (h5 r hkj) hdpi
              subst this
              exact absurd hkj (hks j)
        · exact ⟨a, k, h1, by simp only [Heap.write, if_neg hap]; exact h2, h3, h4, fun r hr => (hdp r).trans (h5 r hr)⟩
  · intro j r hj
    have hold : b.keyOf j = some r := by
      by_cases hji : j = i
      · subst hji
        rcases hki with h | h
        · rw [← h]; exact hj
        · rw [h] at hj; cases hj
      · rw [← hkeep j hji]; exact hj
    obtain ⟨h1, h2⟩ := R.borrow j r hold
    refine ⟨h1, ?_⟩
    by_cases hri : r = i
    · subst hri
      rcases hki with h | h
      · rw [h]; exact h2
      · exact h
    · rw [hkeep r hri]; exact h2

/-- A cipher is set on a context. -/
theorem rel_new {s : MgmMem alg} {v : MgmVals alg} {b : Borrow} (R : MgmRel s v b) (ks0 : alg.KS) {i : Nat} {e : EvpMgm} (he : s.ctx i = some e)
    (hp : e.data = none) :
    MgmRel { ctx := setCtx s.ctx i (some { e with data := some s.heap.next }), heap := (s.heap.alloc (mgmDataNew ks0 i)).1 }
      (setCtx v i (some (some (mgmValNew ks0)))) b := by
  obtain ⟨_, hz, hk, hc⟩ := R.idle i e he hp
  have hdpn := dp_none he hp
  have hdp : ∀ k, (MgmMem.mk (setCtx s.ctx i (some { e with data := some s.heap.next })) (s.heap.alloc (mgmDataNew ks0 i)).1).dp k =
      if k = i then some s.heap.next else s.dp k := fun k => dp_set (h' := s.heap) k
  have hlt : ∀ q k, s.heap.obj q = some k → q ≠ s.heap.next := by
    intro q k hq h; subst h
    exact absurd (R.mem.wf _ (by rw [hq]; simp)) (Nat.lt_irrefl _)
  refine ⟨(MemChange.new i (mgmDataNew ks0 i) hdpn hdp rfl).memWf R.mem, ?_, ?_, ?_, R.borrow⟩
  · intro j hj
    have hji : j ≠ i := by intro h; subst h; simp [setCtx] at hj
    simp only [setCtx, if_neg hji] at hj ⊢
    exact R.dead j hj
  · intro j f hj hf
    have hji : j ≠ i := by intro h; subst h; simp only [setCtx, if_true] at hj; cases hj; cases hf
    simp only [setCtx, if_neg hji] at hj ⊢
    exact R.idle j f hj hf
  · intro j f q dq hj hq hdq
    by_cases hji : j = i
    · subst hji
      simp only [setCtx, if_true] at hj
      cases hj
      cases hq
      simp only [Heap.alloc, if_true] at hdq
      cases hdq
      refine ⟨zeros 16, ?_, ⟨fun _ => ⟨rfl, by rw [hz]; rfl⟩, fun h => (by cases h)⟩⟩
      subst hz
      simp only [setCtx, if_true]
      rfl
    · simp only [setCtx, if_neg hji] at hj ⊢
      obtain ⟨dj, hdj⟩ := R.mem.live j q (dp_of hj hq)
      have hqn := hlt q dj hdj
      simp only [Heap.alloc, if_neg hqn] at hdq
      obtain ⟨iv, hv, rep⟩ := R.busy j f q dq hj hq hdq
      refine ⟨iv, hv, ⟨rep.iv, fun hks => ?_⟩⟩
      obtain ⟨a, k, h1, h2, h3, h4, h5⟩ := rep.key hks
      refine ⟨a, k, h1, by simp only [Heap.alloc, if_neg (hlt a k h2)]; exact h2, h3, h4, fun r hr => ?_⟩
      rw [hdp]
      have := h5 r hr
      split
      · rename_i h; rw [h, hdpn] at this; cases this
      · exact this

/-- A context is reset. -/
theorem rel_reset {freesIv : Bool} {s : MgmMem alg} {v : MgmVals alg} {b : Borrow} (R : MgmRel s v b) {i : Nat} {e : EvpMgm}
    (he : s.ctx i = some e) (hu : b.Unused i) (hc : freesIv = true → b.copied i = false) :
    ∃ s', mgmReset freesIv s i e = some s' ∧
      MgmRel s' (setCtx v i (some none)) { keyOf := setCtx b.keyOf i none, copied := setCtx b.copied i false } := by
  have hex : ∃ s', mgmReset freesIv s i e = some s' := by
    unfold mgmReset
    cases hp : e.data with
    | none => exact ⟨_, rfl⟩
    | some p =>
      obtain ⟨d, hd⟩ := R.mem.live i p (dp_of he hp)
      obtain ⟨iv, _, rep⟩ := R.busy i e p d he hp hd
      simp only [hd]
      have : ¬ (freesIv = true ∧ d.iv ≠ i) := by
        rintro ⟨h1, h2⟩
        exact h2 (rep.iv (hc h1)).1
      rw [if_neg this]
      simp only [Heap.free, hd, Option.map_some]
      exact ⟨_, rfl⟩
  obtain ⟨s', hs'⟩ := hex
  refine ⟨s', hs', ?_⟩
  obtain ⟨W, hctx, hobj, hdead, hnext, _⟩ := reset_some he hs' R.mem
  refine ⟨W, ?_, ?_, ?_, ?_⟩
  · intro j hj
    rw [hctx] at hj
    have hji : j ≠ i := by intro h; subst h; simp at hj
    simp only [setCtx, if_neg hji] at hj ⊢
    exact R.dead j hj
  · intro j f hj hf
    rw [hctx] at hj
    by_cases hji : j = i
    · subst hji
      simp only [if_true] at hj; cases hj
      simp [setCtx]
    · simp only [setCtx, if_neg hji] at hj ⊢
      exact R.idle j f hj hf
  · intro j f q dq hj hq hdq
    rw [hctx] at hj
    by_cases hji : j = i
    · subst hji
      simp only [if_true] at hj; cases hj; cases hq
    · simp only [setCtx, if_neg hji] at hj ⊢
      have hdpj := dp_of hj hq
      have hne : s.dp i ≠ some q := fun h => hji (R.mem.inj j i q hdpj h)
      rw [hobj q hne] at hdq
      obtain ⟨iv, hv, rep⟩ := R.busy j f q dq hj hq hdq
      refine ⟨iv, hv, ⟨by simp only [setCtx, if_neg hji]; exact rep.iv, fun hks => ?_⟩⟩
      obtain ⟨a, k, h1, h2, h3, h4, h5⟩ := rep.key hks
      simp only [setCtx, if_neg hji]
      have hna : s.dp i ≠ some a := by
        intro h
        cases hkj : b.keyOf j with
        | none => rw [h4 hkj] at h; exact hne h
        | some r =>
          have := R.mem.inj r i a (h5 r hkj) h
          subst this
          exact hu j hkj
      refine ⟨a, k, h1, by rw [hobj a hna]; exact h2, h3, h4, fun r hr => ?_⟩
      have hri : r ≠ i := by intro h; subst h; exact hu j hr
      have := h5 r hr
      simp only [MgmMem.dp, hctx, if_neg hri] at this ⊢
      exact this
  · intro j r hj
    by_cases hji : j = i
    · subst hji; simp [setCtx] at hj
    · simp only [setCtx, if_neg hji] at hj ⊢
      obtain ⟨h1, h2⟩ := R.borrow j r hj
      refine ⟨h1, ?_⟩
      split
      · rfl
      · exact h2

/-- A context that was just reset is freed. -/
theorem rel_free {s : MgmMem alg} {v : MgmVals alg} {b : Borrow} (R : MgmRel s v b) {i : Nat} (he : s.ctx i = some EvpMgm.zero) :
    MgmRel { s with ctx := setCtx s.ctx i none } (setCtx v i none) b := by
  obtain ⟨_, _, hk, hc⟩ := R.idle i _ he rfl
  have hdp : ∀ k, (MgmMem.mk (setCtx s.ctx i none) s.heap).dp k = s.dp k := by
    intro k
    rw [dp_set (h' := s.heap)]
    split
    · rename_i h; rw [h]; simp [MgmMem.dp, he, EvpMgm.zero]
    · rfl
  refine ⟨(MemChange.same (s := s) (s' := { s with ctx := setCtx s.ctx i none }) hdp rfl).memWf R.mem, ?_, ?_, ?_, R.borrow⟩
  · intro j hj
    by_cases hji : j = i
    · subst hji; simp [setCtx, hk, hc]
    · simp only [setCtx, if_neg hji] at hj ⊢
      exact R.dead j hj
  · intro j f hj hf
    by_cases hji : j = i
    · subst hji; simp [setCtx] at hj
    · simp only [setCtx, if_neg hji] at hj ⊢
      exact R.idle j f hj hf
  · intro j f q dq hj hq hdq
    by_cases hji : j = i
    · subst hji; simp [setCtx] at hj
    · simp only [setCtx, if_neg hji] at hj ⊢
      obtain ⟨iv, hv, rep⟩ := R.busy j f q dq hj hq hdq
      refine ⟨iv, hv, ⟨rep.iv, fun hks => ?_⟩⟩
      obtain ⟨a, k, h1, h2, h3, h4, h5⟩ := rep.key hks
      exact ⟨a, k, h1, h2, h3, h4, fun r hr => (hdp r).trans (h5 r hr)⟩

/-- The context `i` is copied to the context `j` that was just reset. -/
theorem rel_copy {s : MgmMem alg} {v : MgmVals alg} {b : Borrow} (R : MgmRel s v b) {i j p : Nat} {e : EvpMgm} {d : MgmData alg} (hij : i ≠ j)
    (he : s.ctx i = some e) (hp : e.data = some p) (hd : s.heap.obj p = some d) (hj : s.ctx j = some EvpMgm.zero) (hu : b.Unused j) (iv : Bytes) :
    MgmRel { ctx := setCtx s.ctx j (some { e with data := some s.heap.next }), heap := (s.heap.alloc d).1 }
      (setCtx v j (some (some (mgmViewIv e d iv))))
      { keyOf := setCtx b.keyOf j (some ((b.keyOf i).getD i)), copied := setCtx b.copied j true } := by
  obtain ⟨_, _, hkj, hcj⟩ := R.idle j _ hj rfl
  have hdpn : s.dp j = none := dp_none hj rfl
  have hdpi := dp_of he hp
  have hdp : ∀ k, (MgmMem.mk (setCtx s.ctx j (some { e with data := some s.heap.next })) (s.heap.alloc d).1).dp k =
      if k = j then some s.heap.next else s.dp k := fun k => dp_set (h' := s.heap) k
  have hlt : ∀ q k, s.heap.obj q = some k → q ≠ s.heap.next := by
    intro q k hq h; subst h
    exact absurd (R.mem.wf _ (by rw [hq]; simp)) (Nat.lt_irrefl _)
  obtain ⟨iv0, hv0, repi⟩ := R.busy i e p d he hp hd
  refine ⟨(MemChange.new j d hdpn hdp rfl).memWf R.mem, ?_, ?_, ?_, ?_⟩
  · intro l hl
    have hlj : l ≠ j := by intro h; subst h; simp [setCtx] at hl
    simp only [setCtx, if_neg hlj] at hl ⊢
    exact R.dead l hl
  · intro l f hl hf
    have hlj : l ≠ j := by intro h; subst h; simp only [setCtx, if_true] at hl; cases hl; cases hf
    simp only [setCtx, if_neg hlj] at hl ⊢
    exact R.idle l f hl hf
  · intro l f q dq hl hq hdq
    by_cases hlj : l = j
    · subst hlj
      simp only [setCtx, if_true] at hl
      cases hl
      cases hq
      simp only [Heap.alloc, if_true] at hdq
      cases hdq
      refine ⟨iv, by simp only [setCtx, if_true]; rfl, ⟨fun h => (by simp [setCtx] at h), fun hks => ?_⟩⟩
      obtain ⟨a, k, h1, h2, h3, h4, h5⟩ := repi.key hks
      refine ⟨a, k, h1, by simp only [Heap.alloc, if_neg (hlt a k h2)]; exact h2, h3, fun h => (by simp [setCtx] at h), fun r hr => ?_⟩
      simp only [setCtx, if_true, Option.some.injEq] at hr
      rw [hdp]
      cases hki : b.keyOf i with
      | none =>
        rw [hki] at hr
        simp only [Option.getD_none] at hr
        subst hr
        rw [if_neg hij, h4 hki]; exact hdpi
      | some r' =>
        rw [hki] at hr
        simp only [Option.getD_some] at hr
        subst hr
        have hrl : r' ≠ l := fun h => hu i (by rw [hki, h])
        rw [if_neg hrl]; exact h5 r' hki
    · simp only [setCtx, if_neg hlj] at hl ⊢
      obtain ⟨dl, hdl⟩ := R.mem.live l q (dp_of hl hq)
      have hqn := hlt q dl hdl
      simp only [Heap.alloc, if_neg hqn] at hdq
      obtain ⟨iv1, hv1, rep⟩ := R.busy l f q dq hl hq hdq
      refine ⟨iv1, hv1, ⟨by simp only [setCtx, if_neg hlj]; exact rep.iv, fun hks => ?_⟩⟩
      simp only [setCtx, if_neg hlj]
      obtain ⟨a, k, h1, h2, h3, h4, h5⟩ := rep.key hks
      refine ⟨a, k, h1, by simp only [Heap.alloc, if_neg (hlt a k h2)]; exact h2, h3, h4, fun r hr => ?_⟩
      have hrj : r ≠ j := fun h => hu l (by rw [hr, h])
      have h6 := h5 r hr
      have := hdp r
      rw [if_neg hrj] at this
      exact this.trans h6
  · intro l r hl
    by_cases hlj : l = j
    · subst hlj
      simp only [setCtx, if_true, Option.some.injEq] at hl
      cases hki : b.keyOf i with
      | none =>
        rw [hki] at hl
        simp only [Option.getD_none] at hl
        subst hl
        exact ⟨hij, by simp only [setCtx, if_neg hij]; exact hki⟩
      | some r' =>
        rw [hki] at hl
        simp only [Option.getD_some] at hl
        subst hl
        have hrl : r' ≠ l := fun h => hu i (by rw [hki, h])
        exact ⟨hrl, by simp only [setCtx, if_neg hrl]; exact (R.borrow i r' hki).2⟩
    · simp only [setCtx, if_neg hlj] at hl
      obtain ⟨h1, h2⟩ := R.borrow l r hl
      have hrj : r ≠ j := fun h => hu l (by rw [hl, h])
      exact ⟨h1, by simp only [setCtx, if_neg hrj]; exact h2⟩

/-! ## The methods on values -/

theorem do_iv (c : MgmCtx alg) (out : Bool) (inp : Option Bytes) (iv : Bytes) :
    cipher_do_mgm { c with iv := iv } out inp = ({ (cipher_do_mgm c out inp).1 with iv := iv }, (cipher_do_mgm c out inp).2) := by
  unfold cipher_do_mgm
  simp only
  (repeat' split) <;> rfl

theorem do_keeps (c : MgmCtx alg) (out : Bool) (inp : Option Bytes) :
    (cipher_do_mgm c out inp).1.ks = c.ks ∧ (cipher_do_mgm c out inp).1.key_set = c.key_set ∧ (cipher_do_mgm c out inp).1.ivlen = c.ivlen ∧
      (cipher_do_mgm c out inp).1.encrypting = c.encrypting ∧ (cipher_do_mgm c out inp).1.iv = c.iv := by
  unfold cipher_do_mgm
  simp only
  (repeat' split) <;> exact ⟨rfl, rfl, rfl, rfl, rfl⟩

theorem do_unset (c : MgmCtx alg) (out : Bool) (inp : Option Bytes) (h : ¬ (c.key_set = true ∧ c.iv_set = true)) :
    cipher_do_mgm c out inp = (c, [], -1) := by
  unfold cipher_do_mgm
  by_cases hk : c.key_set = true
  · have : ¬ c.iv_set = true := fun hi => h ⟨hk, hi⟩
    simp [hk, this]
  · simp [hk]

theorem do_view (e : EvpMgm) (d : MgmData alg) (iv : Bytes) (out : Bool) (inp : Option Bytes) :
    (cipher_do_mgm (mgmViewIv e d iv) out inp).1 =
      mgmViewIv { e with buf := (cipher_do_mgm (mgmView e d d.ks) out inp).1.buf }
        { d with mgm := (cipher_do_mgm (mgmView e d d.ks) out inp).1.mgm, iv_set := (cipher_do_mgm (mgmView e d d.ks) out inp).1.iv_set,
                 taglen := (cipher_do_mgm (mgmView e d d.ks) out inp).1.taglen } iv := by
  rw [mgmViewIv, do_iv]
  obtain ⟨h1, h2, h3, h4, h5⟩ := do_keeps (mgmView e d d.ks) out inp
  generalize cipher_do_mgm (mgmView e d d.ks) out inp = r at *
  obtain ⟨⟨_, _, _, _, _, _, _, _, _⟩, _⟩ := r
  simp only at h1 h2 h3 h4 h5
  subst h1; subst h2; subst h3; subst h4; subst h5
  rfl

theorem set_ivlen_iv (c : MgmCtx alg) (arg : Int) (iv : Bytes) :
    mgm_ctrl_set_ivlen { c with iv := iv } arg = ({ (mgm_ctrl_set_ivlen c arg).1 with iv := iv }, (mgm_ctrl_set_ivlen c arg).2) := by
  unfold mgm_ctrl_set_ivlen
  by_cases h1 : arg ≤ 0
  · simp only [if_pos h1]
  · by_cases h2 : arg > 16 ∧ arg > c.ivlen
    · simp only [if_neg h1, if_pos h2]
    · simp only [if_neg h1, if_neg h2]

theorem set_tag_iv (c : MgmCtx alg) (arg : Int) (tag : Bytes) (iv : Bytes) :
    mgm_ctrl_set_tag { c with iv := iv } arg tag = ({ (mgm_ctrl_set_tag c arg tag).1 with iv := iv }, (mgm_ctrl_set_tag c arg tag).2) := by
  unfold mgm_ctrl_set_tag
  by_cases h1 : arg ≤ 0 ∨ arg ≠ alg.bl ∨ c.encrypting = true
  · simp only [if_pos h1]
  · simp only [if_neg h1]

theorem set_ivlen_view (e : EvpMgm) (d : MgmData alg) (arg : Int) (iv : Bytes) :
    ({ (mgm_ctrl_set_ivlen (mgmView e d d.ks) arg).1 with iv := iv } : MgmCtx alg) =
      mgmViewIv e { d with ivlen := (mgm_ctrl_set_ivlen (mgmView e d d.ks) arg).1.ivlen } iv := by
  unfold mgm_ctrl_set_ivlen
  by_cases h1 : arg ≤ 0
  · simp only [if_pos h1]; rfl
  · by_cases h2 : arg > 16 ∧ arg > (mgmView e d d.ks).ivlen
    · simp only [if_neg h1, if_pos h2]; rfl
    · simp only [if_neg h1, if_neg h2]; rfl

theorem set_tag_view (e : EvpMgm) (d : MgmData alg) (arg : Int) (tag : Bytes) (iv : Bytes) :
    ({ (mgm_ctrl_set_tag (mgmView e d d.ks) arg tag).1 with iv := iv } : MgmCtx alg) =
      mgmViewIv { e with buf := (mgm_ctrl_set_tag (mgmView e d d.ks) arg tag).1.buf }
        { d with taglen := (mgm_ctrl_set_tag (mgmView e d d.ks) arg tag).1.taglen } iv := by
  unfold mgm_ctrl_set_tag
  by_cases h1 : arg ≤ 0 ∨ arg ≠ alg.bl ∨ (mgmView e d d.ks).encrypting = true
  · simp only [if_pos h1]; rfl
  · simp only [if_neg h1]; rfl

/-! ## One call -/

/-- What is to be shown of a call. -/
def MgmStepOk (freesIv : Bool) (ks0 : alg.KS) (s : MgmMem alg) (v : MgmVals alg) (b : Borrow) (o : MgmCall) : Prop :=
  (mgmValStep ks0 v o = none → mgmMemStep freesIv ks0 s o = none) ∧
  (∀ r, mgmValStep ks0 v o = some r → ∃ s', mgmMemStep freesIv ks0 s o = some (s', r.2) ∧ MgmRel s' r.1 (b.step v o))

theorem setCtx_setCtx {γ : Type} (c : Nat → γ) (i : Nat) (x y : γ) : setCtx (setCtx c i x) i y = setCtx c i y := by
  funext k; simp only [setCtx]; split <;> rfl

theorem setCtx_same {γ : Type} (c : Nat → γ) (i : Nat) (x : γ) (h : c i = x) : setCtx c i x = c := by
  funext k; simp only [setCtx]; split
  · rename_i hk; rw [hk, h]
  · rfl

theorem write_same {h : Heap (MgmData alg)} {p : Nat} {d : MgmData alg} (hd : h.obj p = some d) : h.write p d = h := by
  obtain ⟨obj, next⟩ := h
  simp only [Heap.write]
  congr 1
  funext q
  split
  · rename_i hq; rw [hq]; exact hd.symm
  · rfl

/-- A data or final call. -/
theorem step_do {s : MgmMem alg} {v : MgmVals alg} {b : Borrow} (R : MgmRel s v b) {i p : Nat} {e : EvpMgm} {d : MgmData alg}
    (he : s.ctx i = some e) (hp : e.data = some p) (hd : s.heap.obj p = some d) (out : Bool) (inp : Option Bytes) :
    ∃ iv, v i = some (some (mgmViewIv e d iv)) ∧ ∃ s',
      mgmPtrDo s i e p d out inp = some (s', (cipher_do_mgm (mgmViewIv e d iv) out inp).2.2, (cipher_do_mgm (mgmViewIv e d iv) out inp).2.1) ∧
      MgmRel s' (setCtx v i (some (some (cipher_do_mgm (mgmViewIv e d iv) out inp).1))) b := by
  obtain ⟨iv, hv, rep⟩ := R.busy i e p d he hp hd
  refine ⟨iv, hv, ?_⟩
  unfold mgmPtrDo
  by_cases hset : d.key_set = true ∧ d.iv_set = true
  · rw [if_pos hset]
    obtain ⟨q, k, h1, h2, h3, h4, h5⟩ := rep.key hset.1
    have hder : s.heap.deref d.key = some k := by simp [Heap.deref, h1, h2]
    rw [hder]
    simp only [h3]
    have h2v : (cipher_do_mgm (mgmViewIv e d iv) out inp).2 = (cipher_do_mgm (mgmView e d d.ks) out inp).2 := by rw [mgmViewIv, do_iv]
    rw [h2v, do_view]
    refine ⟨_, rfl, ?_⟩
    refine rel_own R he hp hd hp rfl (fun _ _ => rfl) (Or.inl rfl) rfl (Or.inl rfl) ⟨rep.iv, fun hks => ?_⟩
    by_cases hqp : q = p
    · refine ⟨q, _, h1, by simp only [Heap.write, if_pos hqp], rfl, h4, fun r hr => ?_⟩
      rw [dp_keep he (by rfl)]; exact h5 r hr
    · refine ⟨q, k, h1, by simp only [Heap.write, if_neg hqp]; exact h2, h3, h4, fun r hr => ?_⟩
      rw [dp_keep he (by rfl)]; exact h5 r hr
  · rw [if_neg hset]
    have : ¬ ((mgmViewIv e d iv).key_set = true ∧ (mgmViewIv e d iv).iv_set = true) := hset
    rw [do_unset _ out inp this]
    refine ⟨s, rfl, ?_⟩
    rw [setCtx_same v i _ hv]
    exact R

/-- A change of members of the data without pointers. -/
theorem rel_plain {s : MgmMem alg} {v : MgmVals alg} {b : Borrow} (R : MgmRel s v b) {i p : Nat} {e e' : EvpMgm} {d d' : MgmData alg} {iv : Bytes}
    (he : s.ctx i = some e) (hp : e.data = some p) (hd : s.heap.obj p = some d) (rep : MgmRep s b i e p d iv) (hp' : e'.data = some p)
    (hiv : e'.iv = e.iv) (h1 : d'.ks = d.ks) (h2 : d'.key_set = d.key_set) (h3 : d'.key = d.key) (h4 : d'.iv = d.iv) :
    MgmRel { ctx := setCtx s.ctx i (some e'), heap := s.heap.write p d' } (setCtx v i (some (some (mgmViewIv e' d' iv)))) b := by
  refine rel_own R he hp hd hp' h4 (fun _ _ => rfl) (Or.inl rfl) rfl (Or.inl h1) ⟨?_, ?_⟩
  · rw [h4, hiv]; exact rep.iv
  · intro hks
    rw [h2] at hks
    obtain ⟨q, k, k1, k2, k3, k4, k5⟩ := rep.key hks
    by_cases hqp : q = p
    · refine ⟨q, d', by rw [h3]; exact k1, by simp only [Heap.write, if_pos hqp], rfl, k4, fun r hr => ?_⟩
      rw [dp_keep he (by rw [hp, hp'])]; exact k5 r hr
    · refine ⟨q, k, by rw [h3]; exact k1, by simp only [Heap.write, if_neg hqp]; exact k2, by rw [h1]; exact k3, k4, fun r hr => ?_⟩
      rw [dp_keep he (by rw [hp, hp'])]; exact k5 r hr

/-- An initialisation with a key. -/
theorem rel_key {s : MgmMem alg} {v : MgmVals alg} {b : Borrow} (R : MgmRel s v b) {i p : Nat} {e e' : EvpMgm} {d : MgmData alg} {iv : Bytes}
    (he : s.ctx i = some e) (hp : e.data = some p) (hd : s.heap.obj p = some d) (rep : MgmRep s b i e p d iv) (hp' : e'.data = some p)
    (hiv : e'.iv = e.iv) (hu : b.Unused i) (key : Bytes) (ivo : Option Bytes) :
    MgmRel { ctx := setCtx s.ctx i (some e'), heap := s.heap.write p (mgmDataKey p d key ivo) }
      (setCtx v i (some (some (mgmViewIv e' (mgmDataKey p d key ivo) iv)))) { b with keyOf := setCtx b.keyOf i none } := by
  have hdiv : (mgmDataKey p d key ivo).iv = d.iv := by cases ivo <;> rfl
  have hdkey : (mgmDataKey p d key ivo).key = some p := by cases ivo <;> rfl
  refine rel_own R he hp hd hp' hdiv (fun j hj => by simp only [setCtx, if_neg hj]) (Or.inr (by simp [setCtx])) rfl (Or.inr hu) ⟨?_, ?_⟩
  · rw [hdiv, hiv]; exact rep.iv
  · intro _
    refine ⟨p, _, hdkey, by simp only [Heap.write, if_true], rfl, fun _ => rfl, fun r hr => ?_⟩
    simp [setCtx] at hr

/-- An initialisation of a context that has data. -/
theorem step_init {freesIv : Bool} {s : MgmMem alg} {v : MgmVals alg} {b : Borrow} (R : MgmRel s v b) {i p : Nat} {e : EvpMgm}
    {d : MgmData alg} (he : s.ctx i = some e) (hp : e.data = some p) (hd : s.heap.obj p = some d) (key iv : Option Bytes) (enc : Bool)
    (hok : b.Ok freesIv v (.init i key iv enc)) :
    ∃ c, v i = some (some c) ∧ ∃ r, mgmPtrInit (setCtx s.ctx i (some { e with encrypting := enc })) p d key iv = some r ∧
      MgmRel { ctx := r.2, heap := s.heap.write p r.1 } (setCtx v i (some (some (cipher_init_mgm c key iv enc))))
        (b.step v (.init i key iv enc)) := by
  obtain ⟨ivv, hv, rep⟩ := R.busy i e p d he hp hd
  refine ⟨_, hv, ?_⟩
  obtain ⟨hok1, hok2⟩ := hok
  have hown : (setCtx s.ctx i (some { e with encrypting := enc })) i = some { e with encrypting := enc } := by simp [setCtx]
  rcases key with _ | key
  · rcases iv with _ | iv
    · refine ⟨(d, _), rfl, ?_⟩
      exact rel_plain R he hp hd rep hp rfl rfl rfl rfl rfl
    · unfold mgmPtrInit
      simp only
      by_cases hk : d.key_set = true
      · rw [if_pos hk]
        refine ⟨_, rfl, ?_⟩
        have : cipher_init_mgm (mgmViewIv e d ivv) none (some iv) enc =
            mgmViewIv { e with encrypting := enc } { d with mgm := gost_mgm128_setiv alg.bl d.mgm iv, iv_set := true } ivv := by
          simp only [cipher_init_mgm, mgmViewIv, mgmView, hk, if_true]
        rw [this]
        exact rel_plain R he hp hd rep hp rfl rfl rfl rfl rfl
      · rw [if_neg hk]
        have hcop : b.copied i = false := by
          cases hcc : b.copied i with
          | false => rfl
          | true => exact absurd ((hok2 hcc _ hv).2 rfl (by simp)) hk
        obtain ⟨hdi, hei⟩ := rep.iv hcop
        rw [hdi, hown]
        simp only [Option.map_some]
        refine ⟨_, rfl, ?_⟩
        simp only
        rw [setCtx_setCtx]
        have : cipher_init_mgm (mgmViewIv e d ivv) none (some iv) enc =
            mgmViewIv { e with encrypting := enc, iv := memcpyTo e.iv iv d.ivlen } { d with iv_set := true, iv := i } (memcpyTo ivv iv d.ivlen) := by
          have hk' : d.key_set = false := by simpa using hk
          simp only [cipher_init_mgm, mgmViewIv, mgmView, hk', Bool.false_eq_true, if_false]
        rw [this]
        refine rel_own (e' := { e with encrypting := enc, iv := memcpyTo e.iv iv d.ivlen }) R he hp hd hp hdi.symm (fun _ _ => rfl)
          (Or.inl rfl) rfl (Or.inl rfl) ⟨fun _ => ⟨rfl, by rw [hei]⟩, fun hks => ?_⟩
        exact absurd hks hk
  · have hu := hok1 (by simp)
    rcases iv with _ | iv
    · unfold mgmPtrInit
      simp only
      by_cases hi : d.iv_set = true
      · rw [if_pos hi]
        have hcop : b.copied i = false := by
          cases hcc : b.copied i with
          | false => rfl
          | true =>
            have := (hok2 hcc _ hv).1 (by simp) rfl
            have h' : d.iv_set = false := this
            rw [hi] at h'; cases h'
        obtain ⟨hdi, hei⟩ := rep.iv hcop
        rw [hdi, hown]
        simp only [Option.map_some]
        refine ⟨_, rfl, ?_⟩
        have : cipher_init_mgm (mgmViewIv e d ivv) (some key) none enc =
            mgmViewIv { e with encrypting := enc } (mgmDataKey p d key (some e.iv)) ivv := by
          simp only [cipher_init_mgm, mgmViewIv, mgmView, hi, if_true, mgmDataKey, hei]
        rw [this]
        exact rel_key (e' := { e with encrypting := enc }) R he hp hd rep hp rfl hu key (some e.iv)
      · rw [if_neg hi]
        refine ⟨_, rfl, ?_⟩
        have : cipher_init_mgm (mgmViewIv e d ivv) (some key) none enc =
            mgmViewIv { e with encrypting := enc } (mgmDataKey p d key none) ivv := by
          have hi' : d.iv_set = false := by simpa using hi
          simp only [cipher_init_mgm, mgmViewIv, mgmView, hi', Bool.false_eq_true, if_false, mgmDataKey]
        rw [this]
        exact rel_key (e' := { e with encrypting := enc }) R he hp hd rep hp rfl hu key none
    · refine ⟨_, rfl, ?_⟩
      exact rel_key (e' := { e with encrypting := enc }) R he hp hd rep hp rfl hu key (some iv)

theorem mgm_step_ok {freesIv : Bool} {ks0 : alg.KS} {s : MgmMem alg} {v : MgmVals alg} {b : Borrow} (R : MgmRel s v b) (o : MgmCall)
    (hok : b.Ok freesIv v o) : MgmStepOk freesIv ks0 s v b o := by
  cases o with
  | init i key iv enc =>
    cases he : s.ctx i with
    | none =>
      obtain ⟨h1, _⟩ := R.dead i he
      refine ⟨fun _ => by simp [mgmMemStep, he], fun r hr => ?_⟩
      simp [mgmValStep, h1] at hr
    | some e =>
      cases hp : e.data with
      | none =>
        obtain ⟨hv, hz, hk, hc⟩ := R.idle i e he hp
        have R1 := rel_new R ks0 he hp
        obtain ⟨c, hc1, r, hr, R2⟩ := step_init (freesIv := freesIv) R1 (i := i) (p := s.heap.next)
          (e := { e with data := some s.heap.next }) (d := mgmDataNew ks0 i) (by simp [setCtx]) rfl (by simp [Heap.alloc]) key iv enc
          ⟨hok.1, fun h => by rw [hc] at h; cases h⟩
        have hce : c = mgmValNew ks0 := by simp only [setCtx, if_true, Option.some.injEq] at hc1; exact hc1.symm
        subst hce
        refine ⟨fun h => by simp [mgmValStep, hv] at h, fun t ht => ?_⟩
        simp only [mgmValStep, hv, Option.map_some, Option.getD_none, Option.some.injEq] at ht
        subst ht
        simp only [setCtx_setCtx] at hr R2
        have hb : b.step (setCtx v i (some (some (mgmValNew ks0)))) (.init i key iv enc) = b.step v (.init i key iv enc) := by
          cases key <;> rfl
        rw [hb] at R2
        refine ⟨_, ?_, R2⟩
        simp only [mgmMemStep, he, hp]
        have hr' : mgmPtrInit (setCtx s.ctx i (some { e with data := some (s.heap.alloc (mgmDataNew ks0 i)).2, encrypting := enc }))
            (s.heap.alloc (mgmDataNew ks0 i)).2 (mgmDataNew ks0 i) key iv = some r := hr
        rw [hr']
        rfl
      | some p =>
        obtain ⟨d, hd⟩ := R.mem.live i p (dp_of he hp)
        obtain ⟨c, hv, r, hr, R2⟩ := step_init (freesIv := freesIv) R he hp hd key iv enc hok
        refine ⟨fun h => by simp [mgmValStep, hv] at h, fun t ht => ?_⟩
        simp only [mgmValStep, hv, Option.map_some, Option.getD_some, Option.some.injEq] at ht
        subst ht
        refine ⟨_, ?_, R2⟩
        simp only [mgmMemStep, he, hp, hd]
        rw [← hp, hr]
        rfl
  | update i out x =>
    cases he : s.ctx i with
    | none =>
      obtain ⟨h1, _⟩ := R.dead i he
      refine ⟨fun _ => by simp [mgmMemStep, he], fun r hr => ?_⟩
      simp [mgmValStep, h1] at hr
    | some e =>
      cases hp : e.data with
      | none =>
        obtain ⟨hv, _⟩ := R.idle i e he hp
        refine ⟨fun h => by simp [mgmValStep, hv] at h, fun t ht => ?_⟩
        simp only [mgmValStep, hv, Option.some.injEq] at ht
        subst ht
        exact ⟨s, by simp [mgmMemStep, he, hp], R⟩
      | some p =>
        obtain ⟨d, hd⟩ := R.mem.live i p (dp_of he hp)
        obtain ⟨iv, hv, s', hs, R2⟩ := step_do R he hp hd out (some x)
        refine ⟨fun h => by simp [mgmValStep, hv] at h, fun t ht => ?_⟩
        simp only [mgmValStep, hv, Option.some.injEq] at ht
        subst ht
        exact ⟨s', by simp only [mgmMemStep, he, hp, hd]; exact hs, R2⟩
  | final i out =>
    cases he : s.ctx i with
    | none =>
      obtain ⟨h1, _⟩ := R.dead i he
      refine ⟨fun _ => by simp [mgmMemStep, he], fun r hr => ?_⟩
      simp [mgmValStep, h1] at hr
    | some e =>
      cases hp : e.data with
      | none =>
        obtain ⟨hv, _⟩ := R.idle i e he hp
        refine ⟨fun h => by simp [mgmValStep, hv] at h, fun t ht => ?_⟩
        simp only [mgmValStep, hv, Option.some.injEq] at ht
        subst ht
        exact ⟨s, by simp [mgmMemStep, he, hp], R⟩
      | some p =>
        obtain ⟨d, hd⟩ := R.mem.live i p (dp_of he hp)
        obtain ⟨iv, hv, s', hs, R2⟩ := step_do R he hp hd out none
        refine ⟨fun h => by simp [mgmValStep, hv] at h, fun t ht => ?_⟩
        simp only [mgmValStep, hv, Option.some.injEq] at ht
        subst ht
        exact ⟨s', by simp only [mgmMemStep, he, hp, hd]; exact hs, R2⟩
  | setIvlen i arg =>
    cases he : s.ctx i with
    | none =>
      obtain ⟨h1, _⟩ := R.dead i he
      refine ⟨fun _ => by simp [mgmMemStep, he], fun r hr => ?_⟩
      simp [mgmValStep, h1] at hr
    | some e =>
      cases hp : e.data with
      | none =>
        obtain ⟨hv, _⟩ := R.idle i e he hp
        refine ⟨fun h => by simp [mgmValStep, hv] at h, fun t ht => ?_⟩
        simp only [mgmValStep, hv, Option.some.injEq] at ht
        subst ht
        exact ⟨s, by simp [mgmMemStep, he, hp], R⟩
      | some p =>
        obtain ⟨d, hd⟩ := R.mem.live i p (dp_of he hp)
        obtain ⟨iv, hv, rep⟩ := R.busy i e p d he hp hd
        refine ⟨fun h => by simp [mgmValStep, hv] at h, fun t ht => ?_⟩
        simp only [mgmValStep, hv, Option.some.injEq] at ht
        subst ht
        have h2 : (mgm_ctrl_set_ivlen (mgmViewIv e d iv) arg).2 = (mgm_ctrl_set_ivlen (mgmView e d d.ks) arg).2 := by
          rw [mgmViewIv, set_ivlen_iv]
        have h1 : (mgm_ctrl_set_ivlen (mgmViewIv e d iv) arg).1 =
            mgmViewIv e { d with ivlen := (mgm_ctrl_set_ivlen (mgmView e d d.ks) arg).1.ivlen } iv := by
          rw [mgmViewIv, set_ivlen_iv]; exact set_ivlen_view _ _ _ _
        refine ⟨{ s with heap := s.heap.write p { d with ivlen := (mgm_ctrl_set_ivlen (mgmView e d d.ks) arg).1.ivlen } },
          by simp only [mgmMemStep, he, hp, hd]; rw [h2], ?_⟩
        simp only
        rw [h1]
        have := rel_plain (d' := { d with ivlen := (mgm_ctrl_set_ivlen (mgmView e d d.ks) arg).1.ivlen }) R he hp hd rep hp rfl rfl rfl rfl rfl
        rw [setCtx_same s.ctx i _ he] at this
        exact this
  | setTag i arg tag =>
    cases he : s.ctx i with
    | none =>
      obtain ⟨h1, _⟩ := R.dead i he
      refine ⟨fun _ => by simp [mgmMemStep, he], fun r hr => ?_⟩
      simp [mgmValStep, h1] at hr
    | some e =>
      cases hp : e.data with
      | none =>
        obtain ⟨hv, _⟩ := R.idle i e he hp
        refine ⟨fun h => by simp [mgmValStep, hv] at h, fun t ht => ?_⟩
        simp only [mgmValStep, hv, Option.some.injEq] at ht
        subst ht
        exact ⟨s, by simp [mgmMemStep, he, hp], R⟩
      | some p =>
        obtain ⟨d, hd⟩ := R.mem.live i p (dp_of he hp)
        obtain ⟨iv, hv, rep⟩ := R.busy i e p d he hp hd
        refine ⟨fun h => by simp [mgmValStep, hv] at h, fun t ht => ?_⟩
        simp only [mgmValStep, hv, Option.some.injEq] at ht
        subst ht
        have h2 : (mgm_ctrl_set_tag (mgmViewIv e d iv) arg tag).2 = (mgm_ctrl_set_tag (mgmView e d d.ks) arg tag).2 := by
          rw [mgmViewIv, set_tag_iv]
        have h1 : (mgm_ctrl_set_tag (mgmViewIv e d iv) arg tag).1 =
            mgmViewIv { e with buf := (mgm_ctrl_set_tag (mgmView e d d.ks) arg tag).1.buf }
              { d with taglen := (mgm_ctrl_set_tag (mgmView e d d.ks) arg tag).1.taglen } iv := by
          rw [mgmViewIv, set_tag_iv]; exact set_tag_view _ _ _ _ _
        refine ⟨{ ctx := setCtx s.ctx i (some { e with buf := (mgm_ctrl_set_tag (mgmView e d d.ks) arg tag).1.buf }),
                  heap := s.heap.write p { d with taglen := (mgm_ctrl_set_tag (mgmView e d d.ks) arg tag).1.taglen } },
          by simp only [mgmMemStep, he, hp, hd]; rw [h2], ?_⟩
        simp only
        rw [h1]
        exact rel_plain R he hp hd rep hp rfl rfl rfl rfl rfl
  | getTag i arg =>
    cases he : s.ctx i with
    | none =>
      obtain ⟨h1, _⟩ := R.dead i he
      refine ⟨fun _ => by simp [mgmMemStep, he], fun r hr => ?_⟩
      simp [mgmValStep, h1] at hr
    | some e =>
      cases hp : e.data with
      | none =>
        obtain ⟨hv, _⟩ := R.idle i e he hp
        refine ⟨fun h => by simp [mgmValStep, hv] at h, fun t ht => ?_⟩
        simp only [mgmValStep, hv, Option.some.injEq] at ht
        subst ht
        exact ⟨s, by simp [mgmMemStep, he, hp], R⟩
      | some p =>
        obtain ⟨d, hd⟩ := R.mem.live i p (dp_of he hp)
        obtain ⟨iv, hv, rep⟩ := R.busy i e p d he hp hd
        have hg : mgm_ctrl_get_tag (mgmViewIv e d iv) arg = mgm_ctrl_get_tag (mgmView e d d.ks) arg := rfl
        cases ht' : mgm_ctrl_get_tag (mgmView e d d.ks) arg with
        | none =>
          refine ⟨fun h => by simp [mgmValStep, hv, hg, ht'] at h, fun t ht => ?_⟩
          simp only [mgmValStep, hv, hg, ht', Option.some.injEq] at ht
          subst ht
          exact ⟨s, by simp only [mgmMemStep, he, hp, hd, ht'], R⟩
        | some x =>
          refine ⟨fun h => by simp [mgmValStep, hv, hg, ht'] at h, fun t ht => ?_⟩
          simp only [mgmValStep, hv, hg, ht', Option.some.injEq] at ht
          subst ht
          exact ⟨s, by simp only [mgmMemStep, he, hp, hd, ht'], R⟩
  | copy i j =>
    by_cases hij : i = j
    · exact ⟨fun _ => by simp [mgmMemStep, hij], fun r hr => by simp [mgmValStep, hij] at hr⟩
    · cases he : s.ctx i with
      | none =>
        obtain ⟨h1, _⟩ := R.dead i he
        refine ⟨fun _ => by simp [mgmMemStep, hij, he], fun r hr => ?_⟩
        simp [mgmValStep, hij, h1] at hr
      | some e =>
        cases hf : s.ctx j with
        | none =>
          obtain ⟨h1, _⟩ := R.dead j hf
          refine ⟨fun _ => by simp [mgmMemStep, hij, he, hf], fun r hr => ?_⟩
          simp only [mgmValStep, if_neg hij, h1] at hr
          split at hr <;> simp_all
        | some f =>
          have hvj : ∃ x, v j = some x := by
            cases hpf : f.data with
            | none => exact ⟨_, (R.idle j f hf hpf).1⟩
            | some q =>
              obtain ⟨d, hd⟩ := R.mem.live j q (dp_of hf hpf)
              obtain ⟨iv, hv, _⟩ := R.busy j f q d hf hpf hd
              exact ⟨_, hv⟩
          obtain ⟨x, hx⟩ := hvj
          cases hp : e.data with
          | none =>
            obtain ⟨hv, _⟩ := R.idle i e he hp
            refine ⟨fun h => by simp [mgmValStep, hij, hv, hx] at h, fun t ht => ?_⟩
            simp only [mgmValStep, if_neg hij, hv, hx, Option.some.injEq] at ht
            subst ht
            refine ⟨s, by simp [mgmMemStep, hij, he, hf, hp], ?_⟩
            have : b.step v (.copy i j) = b := by simp only [Borrow.step, hv]
            rw [this]; exact R
          | some p =>
            obtain ⟨d, hd⟩ := R.mem.live i p (dp_of he hp)
            obtain ⟨iv, hv, rep⟩ := R.busy i e p d he hp hd
            obtain ⟨hu, hc⟩ := hok (by rw [hv]; simp)
            obtain ⟨s1, hs1, R1⟩ := rel_reset (freesIv := freesIv) R hf hu hc
            obtain ⟨W1, hctx, hobj, _⟩ := reset_some hf hs1 R.mem
            have he1 : s1.ctx i = some e := by rw [hctx, if_neg hij]; exact he
            have hj1 : s1.ctx j = some EvpMgm.zero := by rw [hctx, if_pos rfl]
            have hd1 : s1.heap.obj p = some d := by
              rw [hobj p (fun h => hij (R.mem.inj i j p (dp_of he hp) h))]; exact hd
            have hu1 : Borrow.Unused { keyOf := setCtx b.keyOf j none, copied := setCtx b.copied j false } j := by
              intro l
              simp only [setCtx]
              split
              · simp
              · exact hu l
            have R2 := rel_copy R1 hij he1 hp hd1 hj1 hu1 iv
            refine ⟨fun h => by simp [mgmValStep, hij, hv, hx] at h, fun t ht => ?_⟩
            simp only [mgmValStep, if_neg hij, hv, hx, Option.some.injEq] at ht
            subst ht
            refine ⟨_, by simp only [mgmMemStep, if_neg hij, he, hf, hp, hs1, hd1]; rfl, ?_⟩
            simp only [setCtx_setCtx] at R2
            have hb : b.step v (.copy i j) = { keyOf := setCtx b.keyOf j (some ((b.keyOf i).getD i)), copied := setCtx b.copied j true } := by
              simp only [Borrow.step, hv]
            rw [hb]
            have hki : setCtx b.keyOf j none i = b.keyOf i := by simp only [setCtx, if_neg hij]
            rw [hki] at R2
            exact R2
  | reset i =>
    cases he : s.ctx i with
    | none =>
      obtain ⟨h1, _⟩ := R.dead i he
      refine ⟨fun _ => by simp [mgmMemStep, he], fun r hr => ?_⟩
      simp [mgmValStep, h1] at hr
    | some e =>
      obtain ⟨s1, hs1, R1⟩ := rel_reset (freesIv := freesIv) R he hok.1 hok.2
      have hvi : ∃ x, v i = some x := by
        cases hpf : e.data with
        | none => exact ⟨_, (R.idle i e he hpf).1⟩
        | some q =>
          obtain ⟨d, hd⟩ := R.mem.live i q (dp_of he hpf)
          obtain ⟨iv, hv, _⟩ := R.busy i e q d he hpf hd
          exact ⟨_, hv⟩
      obtain ⟨x, hx⟩ := hvi
      refine ⟨fun h => by simp [mgmValStep, hx] at h, fun t ht => ?_⟩
      simp only [mgmValStep, hx, Option.map_some, Option.some.injEq] at ht
      subst ht
      exact ⟨s1, by simp only [mgmMemStep, he, hs1, Option.map_some], R1⟩
  | free i =>
    cases he : s.ctx i with
    | none =>
      obtain ⟨h1, _⟩ := R.dead i he
      refine ⟨fun _ => by simp [mgmMemStep, he], fun r hr => ?_⟩
      simp [mgmValStep, h1] at hr
    | some e =>
      obtain ⟨s1, hs1, R1⟩ := rel_reset (freesIv := freesIv) R he hok.1 hok.2
      obtain ⟨W1, hctx, _⟩ := reset_some he hs1 R.mem
      have hvi : ∃ x, v i = some x := by
        cases hpf : e.data with
        | none => exact ⟨_, (R.idle i e he hpf).1⟩
        | some q =>
          obtain ⟨d, hd⟩ := R.mem.live i q (dp_of he hpf)
          obtain ⟨iv, hv, _⟩ := R.busy i e q d he hpf hd
          exact ⟨_, hv⟩
      obtain ⟨x, hx⟩ := hvi
      have R2 := rel_free R1 (i := i) (by rw [hctx, if_pos rfl])
      rw [setCtx_setCtx] at R2
      refine ⟨fun h => by simp [mgmValStep, hx] at h, fun t ht => ?_⟩
      simp only [mgmValStep, hx, Option.map_some, Option.some.injEq] at ht
      subst ht
      exact ⟨{ s1 with ctx := setCtx s1.ctx i none }, by simp only [mgmMemStep, he, hs1, Option.map_some], R2⟩

/-! ## Histories -/

theorem mgm_run_ok {freesIv : Bool} {ks0 : alg.KS} (ops : List MgmCall) : ∀ {s : MgmMem alg} {v : MgmVals alg} {b : Borrow}, MgmRel s v b →
    b.OkRun freesIv ks0 v ops →
    (mgmValRun ks0 v ops = none → mgmMemRun freesIv ks0 s ops = none) ∧
    (∀ v' out, mgmValRun ks0 v ops = some (v', out) → ∃ s' b', mgmMemRun freesIv ks0 s ops = some (s', out) ∧ MgmRel s' v' b') := by
  induction ops with
  | nil =>
    intro s v b R _
    refine ⟨fun h => by simp [mgmValRun] at h, fun v' out h => ?_⟩
    simp only [mgmValRun, Option.some.injEq, Prod.mk.injEq] at h
    obtain ⟨h1, h2⟩ := h
    subst h1; subst h2
    exact ⟨s, b, rfl, R⟩
  | cons o os ih =>
    intro s v b R hok
    obtain ⟨h1, h2⟩ := mgm_step_ok (ks0 := ks0) R o hok.1
    rw [mgmValRun, mgmMemRun]
    cases hv : mgmValStep ks0 v o with
    | none =>
      rw [h1 hv]
      exact ⟨fun _ => rfl, fun v' out h => by simp at h⟩
    | some r =>
      obtain ⟨s1, hs1, R1⟩ := h2 r hv
      rw [hs1]
      obtain ⟨k1, k2⟩ := ih R1 (hok.2 r hv)
      simp only [Option.bind_some]
      cases ht : mgmValRun ks0 r.1 os with
      | none => rw [k1 ht]; exact ⟨fun _ => rfl, fun v' out h => by simp at h⟩
      | some t =>
        obtain ⟨v2, out2⟩ := t
        obtain ⟨s2, b2, hs2, R2⟩ := k2 v2 out2 ht
        rw [hs2]
        refine ⟨fun h => by simp at h, fun v' out h => ?_⟩
        simp only [Option.map_some, Option.some.injEq, Prod.mk.injEq] at h
        obtain ⟨e1, e2⟩ := h
        subst e1; subst e2
        exact ⟨s2, b2, rfl, R2⟩

/-- **C67** (the part that holds) A history of calls over any number of contexts, with copies, that respects who uses whose memory: every call
returns what it returns when every context is kept by value, and no memory is misused. Missing: the histories that do not
(`C67_copies_independent_false`). -/
theorem C67_copies_independent_partial (freesIv : Bool) (ks0 : alg.KS) (ops : List MgmCall) (h : Borrow.start.OkRun freesIv ks0 mgmValStart ops) :
    (mgmMemRun freesIv ks0 mgmMemStart ops).map (fun r => r.2) = (mgmValRun ks0 mgmValStart ops).map (fun r => r.2) := by
  obtain ⟨h1, h2⟩ := mgm_run_ok ops relStart h
  cases hv : mgmValRun ks0 mgmValStart ops with
  | none => rw [h1 hv]; rfl
  | some r =>
    obtain ⟨v', out⟩ := r
    obtain ⟨s', _, hs, _⟩ := h2 v' out hv
    rw [hs]; rfl

/-- No copy was made. -/
def Borrow.None (b : Borrow) : Prop := (∀ i, b.keyOf i = none) ∧ ∀ i, b.copied i = false

theorem none_step {b : Borrow} (hb : Borrow.None b) (v : MgmVals alg) (o : MgmCall) (ho : ¬ IsCopy o) : Borrow.None (b.step v o) := by
  have hk : ∀ i, Borrow.None { b with keyOf := setCtx b.keyOf i none } := by
    intro i
    refine ⟨fun j => ?_, hb.2⟩
    simp only [setCtx]; split
    · rfl
    · exact hb.1 j
  have hr : ∀ i, Borrow.None { keyOf := setCtx b.keyOf i none, copied := setCtx b.copied i false } := by
    intro i
    refine ⟨(hk i).1, fun j => ?_⟩
    simp only [setCtx]; split
    · rfl
    · exact hb.2 j
  cases o with
  | init i key iv enc =>
    cases key with
    | none => exact hb
    | some k => exact hk i
  | copy i j => exact absurd trivial ho
  | reset i => exact hr i
  | free i => exact hr i
  | update _ _ _ => exact hb
  | final _ _ => exact hb
  | setIvlen _ _ => exact hb
  | setTag _ _ _ => exact hb
  | getTag _ _ => exact hb

theorem none_okStep {freesIv : Bool} {b : Borrow} (hb : Borrow.None b) (v : MgmVals alg) (o : MgmCall) : b.Ok freesIv v o := by
  have hu : ∀ i, b.Unused i := fun i j h => by rw [hb.1 j] at h; cases h
  cases o with
  | init i key iv enc => exact ⟨fun _ => hu i, fun h => by rw [hb.2 i] at h; cases h⟩
  | copy i j => exact fun _ => ⟨hu j, fun _ => hb.2 j⟩
  | reset i => exact ⟨hu i, fun _ => hb.2 i⟩
  | free i => exact ⟨hu i, fun _ => hb.2 i⟩
  | update _ _ _ => trivial
  | final _ _ => trivial
  | setIvlen _ _ => trivial
  | setTag _ _ _ => trivial
  | getTag _ _ => trivial

theorem none_okRun {freesIv : Bool} {ks0 : alg.KS} (ops : List MgmCall) : ∀ {b : Borrow} {v : MgmVals alg}, Borrow.None b → (∀ o ∈ ops, ¬ IsCopy o) →
    b.OkRun freesIv ks0 v ops := by
  induction ops with
  | nil => intro b v _ _; trivial
  | cons o os ih =>
    intro b v hb ho
    exact ⟨none_okStep hb v o, fun r _ => ih (none_step hb v o (ho o (by simp))) (fun x hx => ho x (by simp [hx]))⟩

theorem start_none : Borrow.None Borrow.start := ⟨fun _ => rfl, fun _ => rfl⟩

/-- **C67** Without copies there is no condition. -/
theorem C67_no_copy_by_value (freesIv : Bool) (ks0 : alg.KS) (ops : List MgmCall) (h : ∀ o ∈ ops, ¬ IsCopy o) :
    (mgmMemRun freesIv ks0 mgmMemStart ops).map (fun r => r.2) = (mgmValRun ks0 mgmValStart ops).map (fun r => r.2) :=
  C67_copies_independent_partial freesIv ks0 ops (none_okRun ops start_none h)

/-- **C67** Whatever the history (as long as no memory was misused): what is allocated at the end is the data of a context that was not
freed, each of its own; when all contexts were freed or reset, nothing is left. -/
theorem C67_no_leak (freesIv : Bool) (ks0 : alg.KS) (ops : List MgmCall) (s : MgmMem alg) (out : List (Int × Bytes))
    (h : mgmMemRun freesIv ks0 mgmMemStart ops = some (s, out)) :
    (∀ p, s.heap.obj p ≠ none → ∃ i e, s.ctx i = some e ∧ e.data = some p) ∧
    ((∀ i e, s.ctx i = some e → e.data = none) → ∀ p, s.heap.obj p = none) := by
  have W := memRun_wf ops memStart_wf h
  have h1 : ∀ p, s.heap.obj p ≠ none → ∃ i e, s.ctx i = some e ∧ e.data = some p := by
    intro p hp
    obtain ⟨i, hi⟩ := W.owned p hp
    cases hc : s.ctx i with
    | none => simp [MgmMem.dp, hc] at hi
    | some e => exact ⟨i, e, hc, by simpa [MgmMem.dp, hc] using hi⟩
  refine ⟨h1, fun hall p => ?_⟩
  cases hp : s.heap.obj p with
  | none => rfl
  | some d =>
    obtain ⟨i, e, hi, he⟩ := h1 p (by rw [hp]; simp)
    rw [hall i e hi] at he; cases he

theorem memRun_append {freesIv : Bool} {ks0 : alg.KS} (xs ys : List MgmCall) : ∀ (s : MgmMem alg),
    mgmMemRun freesIv ks0 s (xs ++ ys) =
      (mgmMemRun freesIv ks0 s xs).bind fun r => (mgmMemRun freesIv ks0 r.1 ys).map fun t => (t.1, r.2 ++ t.2) := by
  induction xs with
  | nil =>
    intro s
    simp only [List.nil_append, mgmMemRun, Option.bind_some]
    cases mgmMemRun freesIv ks0 s ys <;> simp
  | cons o os ih =>
    intro s
    simp only [List.cons_append, mgmMemRun]
    cases mgmMemStep freesIv ks0 s o with
    | none => rfl
    | some r =>
      simp only [Option.bind_some, ih]
      cases mgmMemRun freesIv ks0 r.1 os with
      | none => rfl
      | some t =>
        simp only [Option.bind_some, Option.map_some]
        cases mgmMemRun freesIv ks0 t.1 ys <;> simp

/-- A context whose IV pointer is not its own. -/
def Foreign (s : MgmMem alg) (j : Nat) : Prop := ∃ p d, s.dp j = some p ∧ s.heap.obj p = some d ∧ d.iv ≠ j

theorem reset_foreign {s s' : MgmMem alg} {i j : Nat} {e : EvpMgm} (W : MemWf s) (F : Foreign s j) (he : s.ctx i = some e)
    (h : mgmReset true s i e = some s') : i ≠ j ∧ Foreign s' j := by
  obtain ⟨p, d, h1, h2, h3⟩ := F
  obtain ⟨_, hctx, hobj, _, _, hiv⟩ := reset_some he h W
  have hij : i ≠ j := by
    intro h'; subst h'
    exact h3 (hiv rfl p d h1 h2)
  refine ⟨hij, p, d, ?_, ?_, h3⟩
  · simp only [MgmMem.dp, hctx, if_neg (Ne.symm hij)] at h1 ⊢; exact h1
  · rw [hobj p (fun h' => hij (W.inj i j p h' h1))]; exact h2

theorem change_foreign {s s' : MgmMem alg} {j : Nat} (W : MemWf s) (F : Foreign s j) (C : MemChange s s') : Foreign s' j := by
  obtain ⟨p, d, h1, h2, h3⟩ := F
  cases C with
  | same k1 k2 => exact ⟨p, d, by rw [k1]; exact h1, by rw [k2]; exact h2, h3⟩
  | write k1 q dq dq' k2 k3 k4 =>
    by_cases hpq : p = q
    · subst hpq
      rw [k2] at h2; cases h2
      exact ⟨p, dq', by rw [k1]; exact h1, by rw [k3]; simp [Heap.write], by rw [k4]; exact h3⟩
    · exact ⟨p, d, by rw [k1]; exact h1, by rw [k3]; simp only [Heap.write, if_neg hpq]; exact h2, h3⟩
  | new i d' k0 k1 k2 =>
    have hji : j ≠ i := by intro h; rw [h, k0] at h1; cases h1
    have hpn : p ≠ s.heap.next := by
      intro h; subst h
      exact absurd (W.wf _ (by rw [h2]; simp)) (Nat.lt_irrefl _)
    exact ⟨p, d, by rw [k1, if_neg hji]; exact h1, by rw [k2]; simp only [Heap.alloc, if_neg hpn]; exact h2, h3⟩

theorem shape_foreign {s s' : MgmMem alg} {o : MgmCall} {j : Nat} (W : MemWf s) (F : Foreign s j) (S : StepShape true s s' o) : Foreign s' j := by
  cases S with
  | change _ h => exact change_foreign W F h
  | reset i e he h => exact (reset_foreign W F he h).2
  | free i e s1 he h h' =>
    obtain ⟨hij, p, d, h1, h2, h3⟩ := reset_foreign W F he h
    subst h'
    exact ⟨p, d, by simp only [MgmMem.dp, setCtx, if_neg (Ne.symm hij)] at h1 ⊢; exact h1, h2, h3⟩
  | copy i k e f s1 p d hik he hf hp h hd h' =>
    obtain ⟨hkj, F1⟩ := reset_foreign W F hf h
    obtain ⟨W1, hctx, _⟩ := reset_some hf h W
    subst h'
    refine change_foreign W1 F1 (MemChange.new k d ?_ (fun l => ?_) rfl)
    · simp [MgmMem.dp, hctx, EvpMgm.zero]
    · exact dp_set (h' := s1.heap) l

theorem run_foreign {ks0 : alg.KS} {j : Nat} (ops : List MgmCall) : ∀ {s : MgmMem alg}, MemWf s → Foreign s j →
    ∀ o ∈ [MgmCall.free j, MgmCall.reset j], mgmMemRun true ks0 s (ops ++ [o]) = none := by
  induction ops with
  | nil =>
    intro s W F o ho
    simp only [List.nil_append, mgmMemRun]
    cases hs : mgmMemStep true ks0 s o with
    | none => rfl
    | some r =>
      exfalso
      have F' := F
      obtain ⟨p, d, h1, _⟩ := F'
      cases hc : s.ctx j with
      | none => simp [MgmMem.dp, hc] at h1
      | some e =>
        have hno : ∀ s', mgmReset true s j e ≠ some s' := fun s' hr => (reset_foreign W F hc hr).1 rfl
        cases hr : mgmReset true s j e with
        | some s' => exact hno s' hr
        | none =>
          simp only [List.mem_cons, List.not_mem_nil, or_false] at ho
          rcases ho with rfl | rfl <;> simp [mgmMemStep, hc, hr] at hs
  | cons x xs ih =>
    intro s W F o ho
    simp only [List.cons_append, mgmMemRun]
    cases hs : mgmMemStep true ks0 s x with
    | none => rfl
    | some r =>
      obtain ⟨s', t⟩ := r
      have S := memStep_shape hs
      simp only [Option.bind_some, ih (shape_memWf S W) (shape_foreign W F S) o ho]
      rfl

/-- After a history without copies. -/
theorem noCopy_rel {freesIv : Bool} {ks0 : alg.KS} (ops : List MgmCall) : ∀ {s : MgmMem alg} {v v' : MgmVals alg} {b : Borrow} {out : List (Int × Bytes)},
    MgmRel s v b → Borrow.None b → (∀ o ∈ ops, ¬ IsCopy o) → mgmValRun ks0 v ops = some (v', out) →
    ∃ s' b', mgmMemRun freesIv ks0 s ops = some (s', out) ∧ MgmRel s' v' b' ∧ Borrow.None b' := by
  induction ops with
  | nil =>
    intro s v v' b out R hb _ h
    simp only [mgmValRun, Option.some.injEq, Prod.mk.injEq] at h
    obtain ⟨h1, h2⟩ := h
    subst h1; subst h2
    exact ⟨s, b, rfl, R, hb⟩
  | cons o os ih =>
    intro s v v' b out R hb ho h
    obtain ⟨_, h2⟩ := mgm_step_ok (freesIv := freesIv) (ks0 := ks0) R o (none_okStep hb v o)
    rw [mgmValRun] at h
    cases hv : mgmValStep ks0 v o with
    | none => rw [hv] at h; cases h
    | some r =>
      obtain ⟨s1, hs1, R1⟩ := h2 r hv
      rw [hv] at h
      simp only [Option.bind_some] at h
      cases ht : mgmValRun ks0 r.1 os with
      | none => rw [ht] at h; cases h
      | some t =>
        rw [ht] at h
        simp only [Option.map_some, Option.some.injEq, Prod.mk.injEq] at h
        obtain ⟨s2, b2, hs2, R2, hb2⟩ := ih (out := t.2) R1 (none_step hb v o (ho o (by simp))) (fun x hx => ho x (by simp [hx])) (by rw [ht])
        refine ⟨s2, b2, ?_, ?_, hb2⟩
        · rw [mgmMemRun, hs1]; simp only [Option.bind_some, hs2, Option.map_some]; rw [← h.2]
        · rw [← h.1]; exact R2

/-- The state after a history without copies and the copy of a context with a cipher. -/
theorem copy_state {freesIv : Bool} {ks0 : alg.KS} {ops : List MgmCall} (ho : ∀ o ∈ ops, ¬ IsCopy o) {v : MgmVals alg} {out : List (Int × Bytes)}
    (hv : mgmValRun ks0 mgmValStart ops = some (v, out)) {i j : Nat} (hij : i ≠ j) {c : MgmCtx alg} (hi : v i = some (some c)) {x : Option (MgmCtx alg)}
    (hj : v j = some x) :
    ∃ s, mgmMemRun freesIv ks0 mgmMemStart (ops ++ [.copy i j]) = some (s, out ++ [(1, [])]) ∧
      ∃ ei ej p q d iv, s.ctx i = some ei ∧ s.ctx j = some ej ∧ ei.data = some p ∧ ej.data = some q ∧ q ≠ p ∧ s.heap.obj p = some d ∧ s.heap.obj q = some d ∧
        MemWf s ∧ c = mgmViewIv ei d iv ∧ c = mgmViewIv ej d iv ∧ d.iv = i ∧ (d.key_set = true → d.key = some p) := by
  obtain ⟨s0, b, hs0, R, hb⟩ := noCopy_rel (freesIv := freesIv) ops relStart start_none ho hv
  have hci : ∃ e p, s0.ctx i = some e ∧ e.data = some p := by
    cases hc : s0.ctx i with
    | none => rw [(R.dead i hc).1] at hi; cases hi
    | some e =>
      cases hp : e.data with
      | none => rw [(R.idle i e hc hp).1] at hi; cases hi
      | some p => exact ⟨e, p, rfl, hp⟩
  have hcj : ∃ f, s0.ctx j = some f := by
    cases hc : s0.ctx j with
    | none => rw [(R.dead j hc).1] at hj; cases hj
    | some e => exact ⟨e, rfl⟩
  obtain ⟨e, p, he, hp⟩ := hci
  obtain ⟨f, hf⟩ := hcj
  obtain ⟨d, hd⟩ := R.mem.live i p (dp_of he hp)
  obtain ⟨iv, hvi, rep⟩ := R.busy i e p d he hp hd
  have hc : c = mgmViewIv e d iv := by rw [hi] at hvi; cases hvi; rfl
  have hu : b.Unused j := fun l h => by rw [hb.1 l] at h; cases h
  obtain ⟨s1, hs1, R1⟩ := rel_reset (freesIv := freesIv) R hf hu (fun _ => hb.2 j)
  obtain ⟨W1, hctx, hobj, _, hnext, _⟩ := reset_some hf hs1 R.mem
  have hd1 : s1.heap.obj p = some d := by
    rw [hobj p (fun h => hij (R.mem.inj i j p (dp_of he hp) h))]; exact hd
  have hpn : p ≠ s1.heap.next := by
    intro h; subst h
    exact absurd (W1.wf _ (by rw [hd1]; simp)) (Nat.lt_irrefl _)
  have hstep : mgmMemStep freesIv ks0 s0 (.copy i j) =
      some ({ ctx := setCtx s1.ctx j (some { e with data := some s1.heap.next }), heap := (s1.heap.alloc d).1 }, 1, []) := by
    simp only [mgmMemStep, if_neg hij, he, hf, hp, hs1, hd1]; rfl
  have W2 := shape_memWf (memStep_shape hstep) R.mem
  refine ⟨_, ?_, e, { e with data := some s1.heap.next }, p, s1.heap.next, d, iv, ?_, ?_, hp, rfl, Ne.symm hpn, ?_, ?_, W2, hc, hc, ?_, ?_⟩
  · rw [memRun_append, hs0]
    simp only [Option.bind_some, mgmMemRun, hstep, Option.map_some]
  · simp only [setCtx, if_neg hij, hctx]; exact he
  · simp only [setCtx, if_true]
  · simp only [Heap.alloc, if_neg hpn]; exact hd1
  · simp only [Heap.alloc, if_true]
  · exact (rep.iv (hb.2 i)).1
  · intro hk
    obtain ⟨q, k, h1, _, _, h4, _⟩ := rep.key hk
    rw [h1, h4 (hb.1 i)]

/-- **C67** (what happens instead, Kuznyechik) A copy of a context cannot be freed or reset: whatever is done in between, the call frees
memory that was not allocated (the IV buffer inside the original). The copy itself succeeds. -/
theorem C67_kuznyechik_copy_cannot_be_freed (ks0 : kuzMgm.KS) (ops mid : List MgmCall) (ho : ∀ o ∈ ops, ¬ IsCopy o) (v : MgmVals kuzMgm)
    (out : List (Int × Bytes)) (hv : mgmValRun ks0 mgmValStart ops = some (v, out)) (i j : Nat) (hij : i ≠ j) (c : MgmCtx kuzMgm)
    (hi : v i = some (some c)) (x : Option (MgmCtx kuzMgm)) (hj : v j = some x) :
    (∃ s, mgmMemRun true ks0 mgmMemStart (ops ++ [.copy i j]) = some (s, out ++ [(1, [])])) ∧
    ∀ o ∈ [MgmCall.free j, MgmCall.reset j], mgmMemRun true ks0 mgmMemStart ((ops ++ [.copy i j]) ++ (mid ++ [o])) = none := by
  obtain ⟨s, hs, ei, ej, p, q, d, iv, h1, h2, h3, h4, h5, h6, h7, W, _, _, hiv, _⟩ := copy_state (freesIv := true) ho hv hij hi hj
  refine ⟨⟨s, hs⟩, fun o hmem => ?_⟩
  rw [memRun_append, hs]
  simp only [Option.bind_some]
  rw [run_foreign mid W ⟨q, d, dp_of h2 h4, h7, by rw [hiv]; exact hij⟩ o hmem]
  rfl

/-- **C67** (what happens instead, both ciphers) When the original of a copy is given a new key, the copy goes on with the new key of the
original. -/
theorem C67_copy_follows_original (freesIv : Bool) (ks0 : alg.KS) (ops : List MgmCall) (ho : ∀ o ∈ ops, ¬ IsCopy o) (v : MgmVals alg)
    (out : List (Int × Bytes)) (hv : mgmValRun ks0 mgmValStart ops = some (v, out)) (i j : Nat) (hij : i ≠ j) (c : MgmCtx alg)
    (hi : v i = some (some c)) (x : Option (MgmCtx alg)) (hj : v j = some x) (hk : c.key_set = true) (hivs : c.iv_set = true)
    (key iv : Bytes) (enc o : Bool) (m : Bytes) :
    (mgmMemRun freesIv ks0 mgmMemStart ((ops ++ [.copy i j]) ++ [.init i (some key) (some iv) enc, .update j o m])).map (fun r => r.2) =
      some ((out ++ [(1, [])]) ++ [(1, []), ((cipher_do_mgm { c with ks := alg.setKey c.ks key } o (some m)).2.2,
        (cipher_do_mgm { c with ks := alg.setKey c.ks key } o (some m)).2.1)]) := by
  obtain ⟨s, hs, ei, ej, p, q, d, ivv, h1, h2, h3, h4, h5, h6, h7, W, hci, hcj, hiv, hkey⟩ := copy_state (freesIv := freesIv) ho hv hij hi hj
  have hks : d.key_set = true := by rw [hci] at hk; exact hk
  have his : d.iv_set = true := by rw [hci] at hivs; exact hivs
  have hstep : mgmMemStep freesIv ks0 s (.init i (some key) (some iv) enc) =
      some ({ ctx := setCtx s.ctx i (some { ei with encrypting := enc }), heap := s.heap.write p (mgmDataKey p d key (some iv)) }, 1, []) := by
    simp only [mgmMemStep, h1, h3, h6, mgmPtrInit, Option.map_some]
  have hder : (s.heap.write p (mgmDataKey p d key (some iv))).deref d.key = some (mgmDataKey p d key (some iv)) := by
    rw [hkey hks]; simp [Heap.deref, Heap.write]
  have hji : j ≠ i := Ne.symm hij
  have hdo : mgmMemStep freesIv ks0
      { ctx := setCtx s.ctx i (some { ei with encrypting := enc }), heap := s.heap.write p (mgmDataKey p d key (some iv)) } (.update j o m) =
      some ({ ctx := setCtx (setCtx s.ctx i (some { ei with encrypting := enc })) j
                (some { ej with buf := (cipher_do_mgm (mgmView ej d (alg.setKey d.ks key)) o (some m)).1.buf }),
              heap := (s.heap.write p (mgmDataKey p d key (some iv))).write q
                { d with mgm := (cipher_do_mgm (mgmView ej d (alg.setKey d.ks key)) o (some m)).1.mgm,
                         iv_set := (cipher_do_mgm (mgmView ej d (alg.setKey d.ks key)) o (some m)).1.iv_set,
                         taglen := (cipher_do_mgm (mgmView ej d (alg.setKey d.ks key)) o (some m)).1.taglen } },
        (cipher_do_mgm (mgmView ej d (alg.setKey d.ks key)) o (some m)).2.2, (cipher_do_mgm (mgmView ej d (alg.setKey d.ks key)) o (some m)).2.1) := by
    have e1 : setCtx s.ctx i (some { ei with encrypting := enc }) j = some ej := by simp only [setCtx, if_neg hji]; exact h2
    have e2 : (s.heap.write p (mgmDataKey p d key (some iv))).obj q = some d := by simp only [Heap.write, if_neg h5]; exact h7
    simp only [mgmMemStep, e1, h4, e2, mgmPtrDo, hks, his, and_self, if_true, hder]
    rfl
  have hview : ({ c with ks := alg.setKey c.ks key } : MgmCtx alg) = { mgmView ej d (alg.setKey d.ks key) with iv := ivv } := by
    rw [hcj]; rfl
  have hres : (cipher_do_mgm { c with ks := alg.setKey c.ks key } o (some m)).2 =
      (cipher_do_mgm (mgmView ej d (alg.setKey d.ks key)) o (some m)).2 := by
    have e := congrArg Prod.snd (do_iv (mgmView ej d (alg.setKey d.ks key)) o (some m) ivv)
    rw [hview]; exact e
  rw [memRun_append, hs]
  simp only [Option.bind_some, mgmMemRun, hstep, hdo, Option.map_some, hres]

/-- **C67** (what happens instead, both ciphers) When the original of a copy is freed or reset, the use of the copy is the use of freed
memory. -/
theorem C67_copy_dangles (freesIv : Bool) (ks0 : alg.KS) (ops : List MgmCall) (ho : ∀ o ∈ ops, ¬ IsCopy o) (v : MgmVals alg)
    (out : List (Int × Bytes)) (hv : mgmValRun ks0 mgmValStart ops = some (v, out)) (i j : Nat) (hij : i ≠ j) (c : MgmCtx alg)
    (hi : v i = some (some c)) (x : Option (MgmCtx alg)) (hj : v j = some x) (hk : c.key_set = true) (hivs : c.iv_set = true)
    (d : MgmCall) (hd : d = .free i ∨ d = .reset i) (o : Bool) (m : Bytes) :
    (∃ s, mgmMemRun freesIv ks0 mgmMemStart ((ops ++ [.copy i j]) ++ [d]) = some (s, (out ++ [(1, [])]) ++ [(1, [])])) ∧
    mgmMemRun freesIv ks0 mgmMemStart ((ops ++ [.copy i j]) ++ [d, .update j o m]) = none := by
  obtain ⟨s, hs, ei, ej, p, q, dd, ivv, h1, h2, h3, h4, h5, h6, h7, W, hci, hcj, hiv, hkey⟩ := copy_state (freesIv := freesIv) ho hv hij hi hj
  have hks : dd.key_set = true := by rw [hci] at hk; exact hk
  have his : dd.iv_set = true := by rw [hci] at hivs; exact hivs
  have hji : j ≠ i := Ne.symm hij
  have hres : ∃ s', mgmReset freesIv s i ei = some s' := by
    unfold mgmReset
    simp only [h3, h6]
    rw [if_neg (by rintro ⟨_, h⟩; exact h hiv)]
    simp only [Heap.free, h6, Option.map_some]
    exact ⟨_, rfl⟩
  obtain ⟨s', hs'⟩ := hres
  obtain ⟨_, hctx, hobj, hdead, _⟩ := reset_some h1 hs' W
  have hstep : ∃ s2, mgmMemStep freesIv ks0 s d = some (s2, 1, []) ∧ s2.ctx j = some ej ∧ s2.heap = s'.heap := by
    rcases hd with rfl | rfl
    · refine ⟨{ s' with ctx := setCtx s'.ctx i none }, by simp only [mgmMemStep, h1, hs', Option.map_some], ?_, rfl⟩
      simp only [setCtx, if_neg hji, hctx]; exact h2
    · refine ⟨s', by simp only [mgmMemStep, h1, hs', Option.map_some], ?_, rfl⟩
      rw [hctx, if_neg hji]; exact h2
  obtain ⟨s2, hs2, hj2, hheap⟩ := hstep
  have hq : s2.heap.obj q = some dd := by
    rw [hheap, hobj q (fun h => hij (W.inj i j q h (dp_of h2 h4)))]; exact h7
  have hder : s2.heap.deref dd.key = none := by
    rw [hkey hks, hheap]
    simp only [Heap.deref, Option.bind_some]
    exact hdead p (dp_of h1 h3)
  have hup : mgmMemStep freesIv ks0 s2 (.update j o m) = none := by
    simp only [mgmMemStep, hj2, h4, hq, mgmPtrDo, hks, his, and_self, if_true, hder]
  constructor
  · exact ⟨s2, by rw [memRun_append, hs]; simp only [Option.bind_some, mgmMemRun, hs2, Option.map_some]⟩
  · rw [memRun_append, hs]
    simp only [Option.bind_some, mgmMemRun, hs2, hup, Option.bind_none, Option.map_none]

/-! ## Witnesses -/

/-- A history with a copy that respects who uses whose memory (Magma): context 1, a copy of context 0, finishes a message and is freed, then
context 0 gets a new key and is freed. -/
theorem C67_respecting_history (ks0 : magmaMgm.KS) (k iv m k' iv' : Bytes) :
    Borrow.start.OkRun false ks0 mgmValStart
      [.init 0 (some k) (some iv) true, .copy 0 1, .update 1 true m, .final 1 true, .free 1, .init 0 (some k') (some iv') true, .free 0] := by
  have hit : ∀ {γ : Type} (c : Nat → γ) (i : Nat) (x : γ), setCtx c i x i = x := fun c i x => by simp [setCtx]
  have miss01 : ∀ {γ : Type} (c : Nat → γ) (x : γ), setCtx c 1 x 0 = c 0 ∧ setCtx c 0 x 1 = c 1 := fun c x => by simp [setCtx]
  refine ⟨none_okStep start_none _ _, fun r hr => ?_⟩
  simp only [mgmValStep, mgmValStart, Option.map_some, Option.some.injEq] at hr
  subst hr
  refine ⟨none_okStep ⟨fun i => by simp [Borrow.step, Borrow.start, setCtx], fun i => rfl⟩ _ _, fun r hr => ?_⟩
  simp [mgmValStep, hit, miss01, mgmValStart] at hr
  subst hr
  refine ⟨trivial, fun r hr => ?_⟩
  simp [mgmValStep, hit, miss01] at hr
  subst hr
  refine ⟨trivial, fun r hr => ?_⟩
  simp [mgmValStep, hit] at hr
  subst hr
  refine ⟨⟨?_, fun h => (by cases h)⟩, fun r hr => ?_⟩
  · intro j
    simp [Borrow.step, Borrow.start, setCtx]
  simp [mgmValStep, hit] at hr
  subst hr
  refine ⟨⟨fun _ => ?_, ?_⟩, fun r hr => ?_⟩
  · intro j
    simp [Borrow.step, Borrow.start, setCtx]
  · intro h
    simp [Borrow.step, Borrow.start, setCtx] at h
  simp [mgmValStep, hit, miss01] at hr
  subst hr
  refine ⟨⟨?_, fun h => (by cases h)⟩, fun r hr => trivial⟩
  intro j
  simp [Borrow.step, Borrow.start, setCtx]

/-- A history: context 0 encrypts with the sample key; context 1 is a copy of it; context 0 gets another key; context 1 encrypts. -/
def mgmCopyHistory : List MgmCall :=
  [.init 0 (some sampleKey) (some (zeros 8)) true, .update 0 false [1], .copy 0 1, .init 0 (some (zeros 32)) (some (zeros 8)) true,
   .update 1 true [0, 0, 0, 0]]

/-- **C67** The full claim is false: there is a history of calls of Magma-MGM for which the code returns without misuse of memory something
else than with contexts kept by value (the ciphertext of the copy is made with the key set on the original after the copy was made). -/
theorem C67_copies_independent_false :
    ∃ (ks0 : magmaMgm.KS) (ops : List MgmCall) (a b : List (Int × Bytes)),
      (mgmMemRun false ks0 mgmMemStart ops).map (fun r => r.2) = some a ∧ (mgmValRun ks0 mgmValStart ops).map (fun r => r.2) = some b ∧ a ≠ b := by
  have h : ∀ x y : Option (List (Int × Bytes)), x.isSome = true ∧ y.isSome = true ∧ x ≠ y → ∃ a b, x = some a ∧ y = some b ∧ a ≠ b := by
    intro x y ⟨hx, hy, hne⟩
    cases x with
    | none => cases hx
    | some a =>
      cases y with
      | none => cases hy
      | some b => exact ⟨a, b, rfl, rfl, fun e => hne (by rw [e])⟩
  exact ⟨freshCtx witRng true, mgmCopyHistory, h _ _ (by decide +kernel)⟩

end Gost
