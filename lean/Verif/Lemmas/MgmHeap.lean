import Verif.Model.MgmHeap
import Verif.Props.OmacHeap

/-!
# Lemmas about the memory of the MGM ciphers
-/

namespace Gost

variable {alg : MgmAlg}

/-- The data pointer of a context. -/
def MgmMem.dp (s : MgmMem alg) (k : Nat) : Option Nat := (s.ctx k).bind fun e => e.data

/-- The structure of the memory: every context with a cipher has its own live data, and nothing else is allocated. -/
structure MemWf (s : MgmMem alg) : Prop where
  wf : s.heap.Wf
  live : ∀ k p, s.dp k = some p → ∃ d, s.heap.obj p = some d
  inj : ∀ k l p, s.dp k = some p → s.dp l = some p → k = l
  owned : ∀ p, s.heap.obj p ≠ none → ∃ k, s.dp k = some p

/-- What a call can do to the memory. -/
inductive MemChange (s s' : MgmMem alg) : Prop
  | same (h1 : ∀ k, s'.dp k = s.dp k) (h2 : s'.heap = s.heap)
  | write (h1 : ∀ k, s'.dp k = s.dp k) (p : Nat) (d d' : MgmData alg) (h2 : s.heap.obj p = some d) (h3 : s'.heap = s.heap.write p d')
      (h4 : d'.iv = d.iv)
  | new (i : Nat) (d' : MgmData alg) (h0 : s.dp i = none) (h1 : ∀ k, s'.dp k = if k = i then some s.heap.next else s.dp k)
      (h2 : s'.heap = (s.heap.alloc d').1)

theorem dp_set {ctx : Nat → Option EvpMgm} {h h' : Heap (MgmData alg)} {i : Nat} {e : Option EvpMgm} (k : Nat) :
    (MgmMem.mk (setCtx ctx i e) h).dp k = if k = i then e.bind (fun e => e.data) else (MgmMem.mk ctx h').dp k := by
  simp only [MgmMem.dp, setCtx]
  split <;> rfl

theorem dp_of {s : MgmMem alg} {i p : Nat} {e : EvpMgm} (h : s.ctx i = some e) (hp : e.data = some p) : s.dp i = some p := by
  simp [MgmMem.dp, h, hp]

theorem dp_none {s : MgmMem alg} {i : Nat} {e : EvpMgm} (h : s.ctx i = some e) (hp : e.data = none) : s.dp i = none := by
  simp [MgmMem.dp, h, hp]

theorem dp_keep {s : MgmMem alg} {h : Heap (MgmData alg)} {i : Nat} {e e' : EvpMgm} (he : s.ctx i = some e) (hd : e'.data = e.data) (k : Nat) :
    (MgmMem.mk (setCtx s.ctx i (some e')) h).dp k = s.dp k := by
  rw [dp_set (h' := s.heap)]
  split
  · rename_i hk; subst hk; simp [MgmMem.dp, he, hd]
  · rfl

theorem MemChange.memWf {s s' : MgmMem alg} (C : MemChange s s') (W : MemWf s) : MemWf s' := by
  cases C with
  | same h1 h2 =>
    exact ⟨by rw [h2]; exact W.wf, fun k p hk => by rw [h2]; rw [h1] at hk; exact W.live k p hk,
      fun k l p hk hl => by rw [h1] at hk hl; exact W.inj k l p hk hl,
      fun p hp => by rw [h2] at hp; obtain ⟨k, hk⟩ := W.owned p hp; exact ⟨k, by rw [h1]; exact hk⟩⟩
  | write h1 p d d' h2 h3 h4 =>
    refine ⟨by rw [h3]; exact wf_write W.wf h2, fun k q hk => ?_, fun k l q hk hl => ?_, fun q hq => ?_⟩
    · rw [h1] at hk
      obtain ⟨dq, hdq⟩ := W.live k q hk
      rw [h3]
      by_cases hqp : q = p
      · exact ⟨d', by simp [Heap.write, hqp]⟩
      · exact ⟨dq, by simp [Heap.write, hqp, hdq]⟩
    · rw [h1] at hk hl; exact W.inj k l q hk hl
    · rw [h3] at hq
      have : s.heap.obj q ≠ none := by
        by_cases hqp : q = p
        · rw [hqp, h2]; simp
        · simpa [Heap.write, hqp] using hq
      obtain ⟨k, hk⟩ := W.owned q this
      exact ⟨k, by rw [h1]; exact hk⟩
  | new i d' h0 h1 h2 =>
    have hlt : ∀ k p, s.dp k = some p → p < s.heap.next := by
      intro k p hk
      obtain ⟨d, hd⟩ := W.live k p hk
      exact W.wf p (by rw [hd]; simp)
    refine ⟨by rw [h2]; exact wf_alloc W.wf, fun k q hk => ?_, fun k l q hk hl => ?_, fun q hq => ?_⟩
    · rw [h1] at hk
      rw [h2]
      split at hk
      · cases hk; exact ⟨d', by simp [Heap.alloc]⟩
      · have := hlt k q hk
        obtain ⟨d, hd⟩ := W.live k q hk
        exact ⟨d, by simp [Heap.alloc, hd]; omega⟩
    · rw [h1] at hk hl
      split at hk <;> split at hl
      · rename_i a b; rw [a, b]
      · cases hk; exact absurd (hlt l _ hl) (Nat.lt_irrefl _)
      · cases hl; exact absurd (hlt k _ hk) (Nat.lt_irrefl _)
      · exact W.inj k l q hk hl
    · by_cases hqn : q = s.heap.next
      · exact ⟨i, by rw [h1, if_pos rfl, hqn]⟩
      · rw [h2] at hq
        obtain ⟨k, hk⟩ := W.owned q (by simpa [Heap.alloc, hqn] using hq)
        have hki : k ≠ i := by intro e; rw [e, h0] at hk; cases hk
        exact ⟨k, by rw [h1, if_neg hki]; exact hk⟩

theorem reset_some {freesIv : Bool} {s s' : MgmMem alg} {i : Nat} {e : EvpMgm} (he : s.ctx i = some e) (hr : mgmReset freesIv s i e = some s')
    (W : MemWf s) : MemWf s' ∧ (∀ k, s'.ctx k = if k = i then some EvpMgm.zero else s.ctx k) ∧
      (∀ q, s.dp i ≠ some q → s'.heap.obj q = s.heap.obj q) ∧ (∀ q, s.dp i = some q → s'.heap.obj q = none) ∧ s'.heap.next = s.heap.next ∧
      (freesIv = true → ∀ p d, s.dp i = some p → s.heap.obj p = some d → d.iv = i) := by
  unfold mgmReset at hr
  cases hd : e.data with
  | none =>
    rw [hd] at hr
    simp only [Option.some.injEq] at hr
    subst hr
    have hdp := dp_none he hd
    refine ⟨(MemChange.same (fun k => dp_keep he (by rw [hd]; rfl) k) rfl).memWf W, fun k => rfl, fun q _ => rfl, fun q hq => ?_, rfl, ?_⟩
    · rw [hdp] at hq; cases hq
    · intro _ p d hp; rw [hdp] at hp; cases hp
  | some p =>
    have hdp := dp_of he hd
    rw [hd] at hr
    simp only at hr
    obtain ⟨d, hdd⟩ := W.live i p hdp
    rw [hdd] at hr
    simp only at hr
    split at hr
    · cases hr
    · rename_i hf
      simp only [Heap.free, hdd, Option.map_some, Option.some.injEq] at hr
      subst hr
      have hdk : ∀ k, (MgmMem.mk (setCtx s.ctx i (some EvpMgm.zero)) { s.heap with obj := fun q => if q = p then none else s.heap.obj q }).dp k =
          if k = i then none else s.dp k := fun k => dp_set (h' := s.heap) k
      refine ⟨⟨?_, ?_, ?_, ?_⟩, fun k => rfl, fun q hq => ?_, fun q hq => ?_, rfl, ?_⟩
      · intro q hq
        by_cases hqp : q = p
        · subst hqp; simp at hq
        · exact W.wf q (by simpa [hqp] using hq)
      · intro k q hk
        rw [hdk] at hk
        split at hk
        · cases hk
        · rename_i hki
          obtain ⟨dq, hdq⟩ := W.live k q hk
          have : q ≠ p := by intro e; subst e; exact hki (W.inj k i q hk hdp)
          exact ⟨dq, by simp [this, hdq]⟩
      · intro k l q hk hl
        rw [hdk] at hk hl
        split at hk
        · cases hk
        · split at hl
          · cases hl
          · exact W.inj k l q hk hl
      · intro q hq
        by_cases hqp : q = p
        · subst hqp; simp at hq
        · obtain ⟨k, hk⟩ := W.owned q (by simpa [hqp] using hq)
          refine ⟨k, ?_⟩
          rw [hdk]
          have : k ≠ i := by intro e; rw [e, hdp] at hk; cases hk; exact hqp rfl
          rw [if_neg this]; exact hk
      · have : q ≠ p := by intro e; subst e; exact hq hdp
        simp [this]
      · rw [hdp] at hq; cases hq; simp
      · intro hff p' d' hp' hd'
        rw [hdp] at hp'; cases hp'
        rw [hdd] at hd'; cases hd'
        exact Classical.byContradiction fun hne => hf ⟨hff, hne⟩

/-- The initialisation changes data and the IV buffers only. -/
theorem ptrInit_facts {ctx ctx' : Nat → Option EvpMgm} {p : Nat} {d d' : MgmData alg} {key iv : Option Bytes}
    (h : mgmPtrInit ctx p d key iv = some (d', ctx')) :
    d'.iv = d.iv ∧ ∀ k, (ctx' k).bind (fun e => e.data) = (ctx k).bind (fun e => e.data) := by
  unfold mgmPtrInit at h
  rcases key with _ | key <;> rcases iv with _ | iv <;> simp only at h
  · cases h; exact ⟨rfl, fun _ => rfl⟩
  · split at h
    · cases h; exact ⟨rfl, fun _ => rfl⟩
    · cases he : ctx d.iv with
      | none => rw [he] at h; cases h
      | some e =>
        rw [he] at h
        simp only [Option.map_some, Option.some.injEq, Prod.mk.injEq] at h
        obtain ⟨h1, h2⟩ := h
        subst h1; subst h2
        refine ⟨rfl, fun k => ?_⟩
        simp only [setCtx]
        split
        · rename_i hk; rw [hk, he]; rfl
        · rfl
  · split at h
    · cases he : ctx d.iv with
      | none => rw [he] at h; cases h
      | some e =>
        rw [he] at h
        simp only [Option.map_some, Option.some.injEq, Prod.mk.injEq] at h
        obtain ⟨h1, h2⟩ := h
        subst h1; subst h2
        exact ⟨rfl, fun _ => rfl⟩
    · cases h; exact ⟨rfl, fun _ => rfl⟩
  · cases h; exact ⟨rfl, fun _ => rfl⟩

/-- The steps on memory: a change of one of three kinds; or a reset, perhaps followed by the death of the context or by the allocation of a
copy. -/
inductive StepShape (freesIv : Bool) (s s' : MgmMem alg) : MgmCall → Prop
  | change (o : MgmCall) (h : MemChange s s') : StepShape freesIv s s' o
  | reset (i : Nat) (e : EvpMgm) (he : s.ctx i = some e) (h : mgmReset freesIv s i e = some s') : StepShape freesIv s s' (.reset i)
  | free (i : Nat) (e : EvpMgm) (s1 : MgmMem alg) (he : s.ctx i = some e) (h : mgmReset freesIv s i e = some s1)
      (h' : s' = { s1 with ctx := setCtx s1.ctx i none }) : StepShape freesIv s s' (.free i)
  | copy (i j : Nat) (e f : EvpMgm) (s1 : MgmMem alg) (p : Nat) (d : MgmData alg) (hij : i ≠ j) (he : s.ctx i = some e) (hf : s.ctx j = some f)
      (hp : e.data = some p) (h : mgmReset freesIv s j f = some s1) (hd : s1.heap.obj p = some d)
      (h' : s' = { ctx := setCtx s1.ctx j (some { e with data := some (s1.heap.alloc d).2 }), heap := (s1.heap.alloc d).1 }) :
      StepShape freesIv s s' (.copy i j)

theorem ptrDo_change {s s' : MgmMem alg} {i p : Nat} {e : EvpMgm} {d : MgmData alg} {out : Bool} {inp : Option Bytes} {r : Int × Bytes}
    (he : s.ctx i = some e) (hd : s.heap.obj p = some d) (h : mgmPtrDo s i e p d out inp = some (s', r)) : MemChange s s' := by
  unfold mgmPtrDo at h
  split at h
  · cases hk : s.heap.deref d.key with
    | none => rw [hk] at h; cases h
    | some k =>
      rw [hk] at h
      simp only [Option.some.injEq, Prod.mk.injEq] at h
      obtain ⟨h1, _⟩ := h
      subst h1
      exact .write (fun k => dp_keep he (by rfl) k) p d _ hd rfl rfl
  · simp only [Option.some.injEq, Prod.mk.injEq] at h
    obtain ⟨h1, _⟩ := h
    subst h1
    exact .same (fun _ => rfl) rfl

theorem memStep_shape {freesIv : Bool} {ks0 : alg.KS} {s s' : MgmMem alg} {o : MgmCall} {r : Int × Bytes}
    (h : mgmMemStep freesIv ks0 s o = some (s', r)) : StepShape freesIv s s' o := by
  cases o with
  | init i key iv enc =>
    simp only [mgmMemStep] at h
    cases he : s.ctx i with
    | none => rw [he] at h; cases h
    | some e =>
      rw [he] at h
      simp only at h
      cases hp : e.data with
      | none =>
        rw [hp] at h
        simp only at h
        cases hr : mgmPtrInit (setCtx s.ctx i (some { e with data := some (s.heap.alloc (mgmDataNew ks0 i)).2, encrypting := enc }))
          (s.heap.alloc (mgmDataNew ks0 i)).2 (mgmDataNew ks0 i) key iv with
        | none => rw [hr] at h; cases h
        | some t =>
          rw [hr] at h
          obtain ⟨d', ctx'⟩ := t
          simp only [Option.map_some, Option.some.injEq, Prod.mk.injEq] at h
          obtain ⟨h1, _⟩ := h
          subst h1
          obtain ⟨f1, f2⟩ := ptrInit_facts hr
          refine .change _ (.new i d' (dp_none he hp) (fun k => ?_) ?_)
          · refine (f2 k).trans ?_
            simp only [setCtx]
            split
            · rfl
            · rfl
          · simp only [Heap.write, Heap.alloc]
            congr 1
            funext q
            split <;> rfl
      | some p =>
        rw [hp] at h
        simp only at h
        cases hd : s.heap.obj p with
        | none => rw [hd] at h; cases h
        | some d =>
          rw [hd] at h
          simp only at h
          cases hr : mgmPtrInit (setCtx s.ctx i (some { e with data := some p, encrypting := enc })) p d key iv with
          | none => rw [hr] at h; cases h
          | some t =>
            rw [hr] at h
            obtain ⟨d', ctx'⟩ := t
            simp only [Option.map_some, Option.some.injEq, Prod.mk.injEq] at h
            obtain ⟨h1, _⟩ := h
            subst h1
            obtain ⟨f1, f2⟩ := ptrInit_facts hr
            refine .change _ (.write (fun k => ?_) p d d' hd rfl f1)
            exact (f2 k).trans (dp_keep (h := s.heap) he (by rw [hp]) k)
  | update i out x =>
    simp only [mgmMemStep] at h
    cases he : s.ctx i with
    | none => rw [he] at h; cases h
    | some e =>
      rw [he] at h
      simp only at h
      cases hp : e.data with
      | none => rw [hp] at h; simp only [Option.some.injEq, Prod.mk.injEq] at h; rw [← h.1]; exact .change _ (.same (fun _ => rfl) rfl)
      | some p =>
        rw [hp] at h
        simp only at h
        cases hd : s.heap.obj p with
        | none => rw [hd] at h; cases h
        | some d => rw [hd] at h; exact .change _ (ptrDo_change he hd h)
  | final i out =>
    simp only [mgmMemStep] at h
    cases he : s.ctx i with
    | none => rw [he] at h; cases h
    | some e =>
      rw [he] at h
      simp only at h
      cases hp : e.data with
      | none => rw [hp] at h; simp only [Option.some.injEq, Prod.mk.injEq] at h; rw [← h.1]; exact .change _ (.same (fun _ => rfl) rfl)
      | some p =>
        rw [hp] at h
        simp only at h
        cases hd : s.heap.obj p with
        | none => rw [hd] at h; cases h
        | some d => rw [hd] at h; exact .change _ (ptrDo_change he hd h)
  | setIvlen i arg =>
    simp only [mgmMemStep] at h
    cases he : s.ctx i with
    | none => rw [he] at h; cases h
    | some e =>
      rw [he] at h
      simp only at h
      cases hp : e.data with
      | none => rw [hp] at h; simp only [Option.some.injEq, Prod.mk.injEq] at h; rw [← h.1]; exact .change _ (.same (fun _ => rfl) rfl)
      | some p =>
        rw [hp] at h
        simp only at h
        cases hd : s.heap.obj p with
        | none => rw [hd] at h; cases h
        | some d =>
          rw [hd] at h
          simp only [Option.some.injEq, Prod.mk.injEq] at h
          rw [← h.1]
          exact .change _ (.write (fun _ => rfl) p d _ hd rfl rfl)
  | setTag i arg tag =>
    simp only [mgmMemStep] at h
    cases he : s.ctx i with
    | none => rw [he] at h; cases h
    | some e =>
      rw [he] at h
      simp only at h
      cases hp : e.data with
      | none => rw [hp] at h; simp only [Option.some.injEq, Prod.mk.injEq] at h; rw [← h.1]; exact .change _ (.same (fun _ => rfl) rfl)
      | some p =>
        rw [hp] at h
        simp only at h
        cases hd : s.heap.obj p with
        | none => rw [hd] at h; cases h
        | some d =>
          rw [hd] at h
          simp only [Option.some.injEq, Prod.mk.injEq] at h
          rw [← h.1]
          exact .change _ (.write (fun k => dp_keep he (by rw [hp]) k) p d _ hd rfl rfl)
  | getTag i arg =>
    simp only [mgmMemStep] at h
    cases he : s.ctx i with
    | none => rw [he] at h; cases h
    | some e =>
      rw [he] at h
      simp only at h
      cases hp : e.data with
      | none => rw [hp] at h; simp only [Option.some.injEq, Prod.mk.injEq] at h; rw [← h.1]; exact .change _ (.same (fun _ => rfl) rfl)
      | some p =>
        rw [hp] at h
        simp only at h
        cases hd : s.heap.obj p with
        | none => rw [hd] at h; cases h
        | some d =>
          rw [hd] at h
          simp only at h
          cases hg : mgm_ctrl_get_tag (mgmView e d d.ks) arg with
          | none => rw [hg] at h; simp only [Option.some.injEq, Prod.mk.injEq] at h; rw [← h.1]; exact .change _ (.same (fun _ => rfl) rfl)
          | some t => rw [hg] at h; simp only [Option.some.injEq, Prod.mk.injEq] at h; rw [← h.1]; exact .change _ (.same (fun _ => rfl) rfl)
  | copy i j =>
    simp only [mgmMemStep] at h
    split at h
    · cases h
    · rename_i hij
      cases he : s.ctx i with
      | none => rw [he] at h; cases h
      | some e =>
        cases hf : s.ctx j with
        | none => rw [he, hf] at h; cases h
        | some f =>
          rw [he, hf] at h
          simp only at h
          cases hp : e.data with
          | none => rw [hp] at h; simp only [Option.some.injEq, Prod.mk.injEq] at h; rw [← h.1]; exact .change _ (.same (fun _ => rfl) rfl)
          | some p =>
            rw [hp] at h
            simp only at h
            cases hr : mgmReset freesIv s j f with
            | none => rw [hr] at h; cases h
            | some s1 =>
              rw [hr] at h
              simp only at h
              cases hd : s1.heap.obj p with
              | none => rw [hd] at h; cases h
              | some d =>
                rw [hd] at h
                simp only [Option.some.injEq, Prod.mk.injEq] at h
                exact .copy i j e f s1 p d hij he hf hp hr hd h.1.symm
  | reset i =>
    simp only [mgmMemStep] at h
    cases he : s.ctx i with
    | none => rw [he] at h; cases h
    | some e =>
      rw [he] at h
      simp only at h
      cases hr : mgmReset freesIv s i e with
      | none => rw [hr] at h; cases h
      | some s1 =>
        rw [hr] at h
        simp only [Option.map_some, Option.some.injEq, Prod.mk.injEq] at h
        rw [← h.1]
        exact .reset i e he hr
  | free i =>
    simp only [mgmMemStep] at h
    cases he : s.ctx i with
    | none => rw [he] at h; cases h
    | some e =>
      rw [he] at h
      simp only at h
      cases hr : mgmReset freesIv s i e with
      | none => rw [hr] at h; cases h
      | some s1 =>
        rw [hr] at h
        simp only [Option.map_some, Option.some.injEq, Prod.mk.injEq] at h
        exact .free i e s1 he hr h.1.symm

theorem shape_memWf {freesIv : Bool} {s s' : MgmMem alg} {o : MgmCall} (S : StepShape freesIv s s' o) (W : MemWf s) : MemWf s' := by
  cases S with
  | change _ h => exact h.memWf W
  | reset i e he h => exact (reset_some he h W).1
  | free i e s1 he h h' =>
    obtain ⟨W1, hc, _⟩ := reset_some he h W
    subst h'
    refine (MemChange.same (s := s1) (s' := { s1 with ctx := setCtx s1.ctx i none }) (fun k => ?_) rfl).memWf W1
    rw [dp_set (h' := s1.heap)]
    split
    · rename_i hk; rw [hk]; simp [MgmMem.dp, hc, EvpMgm.zero]
    · rfl
  | copy i j e f s1 p d hij he hf hp h hd h' =>
    obtain ⟨W1, hc, _⟩ := reset_some hf h W
    subst h'
    refine (MemChange.new (s := s1) j d ?_ (fun k => ?_) rfl).memWf W1
    · simp [MgmMem.dp, hc, EvpMgm.zero]
    · exact dp_set (h' := s1.heap) k

theorem memStart_wf : MemWf (mgmMemStart (alg := alg)) :=
  ⟨fun q hq => absurd rfl hq, fun k p hk => (by cases hk), fun k l p hk => (by cases hk), fun p hp => absurd rfl hp⟩

theorem memRun_wf {freesIv : Bool} {ks0 : alg.KS} (ops : List MgmCall) : ∀ {s s' : MgmMem alg} {out : List (Int × Bytes)}, MemWf s →
    mgmMemRun freesIv ks0 s ops = some (s', out) → MemWf s' := by
  induction ops with
  | nil => intro s s' out W h; cases h; exact W
  | cons o os ih =>
    intro s s' out W h
    rw [mgmMemRun] at h
    cases hs : mgmMemStep freesIv ks0 s o with
    | none => rw [hs] at h; cases h
    | some r =>
      obtain ⟨s1, x⟩ := r
      rw [hs] at h
      simp only [Option.bind_some] at h
      cases ht : mgmMemRun freesIv ks0 s1 os with
      | none => rw [ht] at h; cases h
      | some t =>
        rw [ht] at h
        simp only [Option.map_some, Option.some.injEq, Prod.mk.injEq] at h
        rw [← h.1]
        exact ih (shape_memWf (memStep_shape hs) W) (by rw [ht])

end Gost
