import Verif.Model.MethThreads

/-!
# C93: threads that use an algorithm for the first time at the same time get complete methods

* In every interleaving, and whatever allocations fail, a method a thread gets has all its settings, and keeps them: no thread writes to
  it again, and it is not freed (`C93_complete`, `C93_cipher_complete`).  What a failed call made is freed (`C93_failed_freed`).
* If no allocation fails every call delivers a method (`C93_all_get_one`), and each thread makes at most one (`C93_one_each`); once there
  is a method and no thread is under way, no further one is made and all get that one (`C93_settled`).
* A call returns after a fixed number of steps of its own thread (`C93_wait_free`).
* What does not hold: with two threads two methods can be made, one of which nothing can free (`C93_leak_false`), and a thread whose own
  allocations succeed can get NULL because an allocation of another failed (`C93_own_success_false`).
-/

namespace Gost

variable {β : Type}

/-- The thread is working on the object. -/
def MethThread.owns (t : MethThread) (p : Nat) : Prop := (∃ k f, t.pc = .fill p k f) ∨ t.pc = .discard p

/-- The object has all its settings. -/
def MethMem.Full (d : MethDesc β) (m : MethMem β) (p : Nat) : Prop := m.heap[p]? = some (some (d.upTo d.sets.length))

/-- What holds of a thread. -/
structure MethOk (d : MethDesc β) (m : MethMem β) (t : MethThread) : Prop where
  pc : t.pc ≠ .fault
  held : ∀ p, some p ∈ t.held → m.Full d p
  store : ∀ p, t.pc = .store (some p) → m.Full d p
  fill : ∀ p k f, t.pc = .fill p k f → m.heap[p]? = some (some (d.upTo k)) ∧ k ≤ d.sets.length
  discard : ∀ p, t.pc = .discard p → ∃ o, m.heap[p]? = some (some o)

/-- An object that can be reached is not owned by the thread `u`. -/
def MethThread.reach (t : MethThread) (p : Nat) : Prop := some p ∈ t.held ∨ t.pc = .store (some p)

/-- The invariant. -/
structure MethInv (d : MethDesc β) (s : MethState β) : Prop where
  var : ∀ p, s.mem.var = some p → s.mem.Full d p ∧ ∀ (i : Nat) t, s.threads[i]? = some t → ¬ t.owns p
  ok : ∀ (i : Nat) t, s.threads[i]? = some t → MethOk d s.mem t
  reach : ∀ (i j : Nat) t u p, s.threads[i]? = some t → s.threads[j]? = some u → t.reach p → ¬ u.owns p
  uniq : ∀ (i j : Nat) t u p, s.threads[i]? = some t → s.threads[j]? = some u → i ≠ j → t.owns p → ¬ u.owns p

theorem MethOk.owns_live {d : MethDesc β} {m : MethMem β} {t : MethThread} (h : MethOk d m t) {p : Nat} (ho : t.owns p) :
    ∃ o, m.heap[p]? = some (some o) := by
  rcases ho with ⟨k, f, ho⟩ | ho
  · exact ⟨_, (h.fill p k f ho).1⟩
  · exact h.discard p ho

theorem lt_of_live {m : MethMem β} {p : Nat} {o : Option β} (h : m.heap[p]? = some o) : p < m.heap.length :=
  (List.getElem?_eq_some_iff.mp h).1

theorem getElem?_set_cases {α : Type} {l : List α} {i j : Nat} {x y : α} (h : (l.set i x)[j]? = some y) :
    (j = i ∧ y = x) ∨ (j ≠ i ∧ l[j]? = some y) := by
  by_cases hj : j = i
  · subst hj
    rw [List.getElem?_set_self'] at h
    cases hl : l[j]? with
    | none => rw [hl] at h; cases h
    | some z => rw [hl] at h; exact Or.inl ⟨rfl, (Option.some.inj h).symm⟩
  · rw [List.getElem?_set_ne (fun e => hj e.symm)] at h
    exact Or.inr ⟨hj, h⟩

/-- A step of one thread keeps the invariant. -/
theorem MethInv.set {d : MethDesc β} {s : MethState β} (I : MethInv d s) {i : Nat} {t : MethThread} (hi : s.threads[i]? = some t)
    {m' : MethMem β} {t' : MethThread}
    (frame : ∀ q, q < s.mem.heap.length → ¬ t.owns q → m'.heap[q]? = s.mem.heap[q]?)
    (own : ∀ q, t'.owns q → t.owns q ∨ s.mem.heap.length ≤ q)
    (var : ∀ p, m'.var = some p → s.mem.var = some p ∨ t.reach p)
    (rch : ∀ p, t'.reach p → (t.reach p ∨ t.owns p ∨ s.mem.var = some p) ∧ ¬ t'.owns p)
    (vown : ∀ p, m'.var = some p → ¬ t'.owns p)
    (ok : MethOk d m' t') : MethInv d ⟨m', s.threads.set i t'⟩ := by
  have ti := I.ok i t hi
  -- objects with all settings that the thread does not own stay
  have keep : ∀ p o, s.mem.heap[p]? = some o → ¬ t.owns p → m'.heap[p]? = some o := by
    intro p o h hn
    rw [frame p (lt_of_live h) hn]; exact h
  have okj : ∀ (j : Nat) u, j ≠ i → s.threads[j]? = some u → MethOk d m' u := by
    intro j u hj hu
    have h := I.ok j u hu
    exact {
      pc := h.pc
      held := fun p hp => keep p _ (h.held p hp) (I.reach j i u t p hu hi (Or.inl hp))
      store := fun p hp => keep p _ (h.store p hp) (I.reach j i u t p hu hi (Or.inr hp))
      fill := fun p k f hp => ⟨keep p _ (h.fill p k f hp).1 (I.uniq j i u t p hu hi hj (Or.inl ⟨k, f, hp⟩)), (h.fill p k f hp).2⟩
      discard := fun p hp => by
        obtain ⟨o, ho⟩ := h.discard p hp
        exact ⟨o, keep p _ ho (I.uniq j i u t p hu hi hj (Or.inr hp))⟩ }
  -- the others own nothing the thread can newly own, and nothing that can be reached
  have ownj : ∀ (j : Nat) u p, j ≠ i → s.threads[j]? = some u → t'.owns p → ¬ u.owns p := by
    intro j u p hj hu ho hu'
    rcases own p ho with h | h
    · exact I.uniq i j t u p hi hu (fun e => hj e.symm) h hu'
    · obtain ⟨o, hlive⟩ := (I.ok j u hu).owns_live hu'
      exact Nat.lt_irrefl _ (Nat.lt_of_lt_of_le (lt_of_live hlive) h)
  have reachj : ∀ (j : Nat) u p, j ≠ i → s.threads[j]? = some u → t'.reach p → ¬ u.owns p := by
    intro j u p hj hu hr
    rcases (rch p hr).1 with h | h | h
    · exact I.reach i j t u p hi hu h
    · exact I.uniq i j t u p hi hu (fun e => hj e.symm) h
    · exact (I.var p h).2 j u hu
  refine ⟨fun p hp => ?_, fun j u hu => ?_, fun j l u w p hu hw hr => ?_, fun j l u w p hu hw hjl ho => ?_⟩
  · have old : s.mem.Full d p ∧ ∀ (j : Nat) u, s.threads[j]? = some u → ¬ u.owns p := by
      rcases var p hp with h | h
      · exact I.var p h
      · exact ⟨h.elim (ti.held p) (ti.store p), fun j u hu => I.reach i j t u p hi hu h⟩
    refine ⟨keep p _ old.1 (old.2 i t hi), fun j u hu => ?_⟩
    rcases getElem?_set_cases hu with ⟨_, rfl⟩ | ⟨_, hu⟩
    · exact vown p hp
    · exact old.2 j u hu
  · rcases getElem?_set_cases hu with ⟨_, rfl⟩ | ⟨hj, hu⟩
    · exact ok
    · exact okj j u hj hu
  · rcases getElem?_set_cases hu with ⟨_, rfl⟩ | ⟨hj, hu2⟩
    · rcases getElem?_set_cases hw with ⟨_, rfl⟩ | ⟨hl, hw2⟩
      · exact (rch p hr).2
      · exact reachj l w p hl hw2 hr
    · rcases getElem?_set_cases hw with ⟨_, rfl⟩ | ⟨hl, hw2⟩
      · intro ho
        rcases own p ho with h | h
        · exact I.reach j i u t p hu2 hi hr h
        · have hfull : s.mem.Full d p := hr.elim ((I.ok j u hu2).held p) ((I.ok j u hu2).store p)
          exact Nat.lt_irrefl _ (Nat.lt_of_lt_of_le (lt_of_live hfull) h)
      · exact I.reach j l u w p hu2 hw2 hr
  · rcases getElem?_set_cases hu with ⟨e1, rfl⟩ | ⟨hj, hu2⟩
    · rcases getElem?_set_cases hw with ⟨e2, rfl⟩ | ⟨hl, hw2⟩
      · exact (hjl (e1.trans e2.symm)).elim
      · exact ownj l w p hl hw2 ho
    · rcases getElem?_set_cases hw with ⟨_, rfl⟩ | ⟨hl, hw2⟩
      · exact fun h => ownj j u p hj hu2 h ho
      · exact I.uniq j l u w p hu2 hw2 hjl ho

theorem upTo_succ (d : MethDesc β) {k : Nat} {g : β → β} (h : d.sets[k]? = some g) : d.upTo (k + 1) = g (d.upTo k) := by
  obtain ⟨hk, rfl⟩ := List.getElem?_eq_some_iff.mp h
  unfold MethDesc.upTo
  rw [List.take_succ_eq_append_getElem hk, List.foldl_append]
  rfl

/-- A thread that works on no object, at a place where nothing is to be shown. -/
theorem MethOk.plain {d : MethDesc β} {m : MethMem β} {t : MethThread} (h1 : ∀ p, some p ∈ t.held → m.Full d p)
    (h2 : t.pc = .idle ∨ t.pc = .again ∨ t.pc = .store none ∨ ∃ f, t.pc = .create f) : MethOk d m t := by
  refine ⟨?_, h1, fun p hp => ?_, fun p k f hp => ?_, fun p hp => ?_⟩ <;>
    rcases h2 with h2 | h2 | h2 | ⟨f, h2⟩ <;> simp_all

theorem not_owns_plain {t : MethThread} (h : t.pc = .idle ∨ t.pc = .again ∨ (∃ l, t.pc = .store l) ∨ ∃ f, t.pc = .create f) (p : Nat) :
    ¬ t.owns p := by
  rintro (⟨k, f, h'⟩ | h') <;> rcases h with h | h | ⟨l, h⟩ | ⟨f, h⟩ <;> rw [h] at h' <;> cases h'

theorem methInv_step {d : MethDesc β} {s : MethState β} (I : MethInv d s) (i : Nat) : MethInv d (s.step d i) := by
  unfold MethState.step
  cases hi : s.threads[i]? with
  | none => exact I
  | some t =>
    have T := I.ok i t hi
    simp only
    unfold methStep
    cases hpc : t.pc with
    | idle =>
      simp only
      cases htd : t.todo with
      | nil =>
        refine I.set hi (fun _ _ _ => rfl) (fun _ h => Or.inl h) (fun _ h => Or.inl h) (fun p h => ⟨Or.inl h, ?_⟩) (fun p _ => ?_) T <;>
          exact not_owns_plain (Or.inl hpc) p
      | cons f rest =>
        by_cases hv : s.mem.var.isSome
        · simp only [hv, if_true]
          refine I.set hi (fun _ _ _ => rfl) (fun q h => ?_) (fun _ h => Or.inl h) (fun p h => ⟨?_, ?_⟩) (fun p _ => ?_)
            (MethOk.plain T.held (Or.inr (Or.inl rfl)))
          · exact (not_owns_plain (Or.inr (Or.inl rfl)) q h).elim
          · rcases h with h | h
            · exact Or.inl (Or.inl h)
            · cases h
          · exact not_owns_plain (Or.inr (Or.inl rfl)) p
          · exact not_owns_plain (Or.inr (Or.inl rfl)) p
        · simp only [hv, if_false, Bool.false_eq_true]
          refine I.set hi (fun _ _ _ => rfl) (fun q h => ?_) (fun _ h => Or.inl h) (fun p h => ⟨?_, ?_⟩) (fun p _ => ?_)
            (MethOk.plain T.held (Or.inr (Or.inr (Or.inr ⟨f, rfl⟩))))
          · exact (not_owns_plain (Or.inr (Or.inr (Or.inr ⟨f, rfl⟩))) q h).elim
          · rcases h with h | h
            · exact Or.inl (Or.inl h)
            · cases h
          · exact not_owns_plain (Or.inr (Or.inr (Or.inr ⟨f, rfl⟩))) p
          · exact not_owns_plain (Or.inr (Or.inr (Or.inr ⟨f, rfl⟩))) p
    | again =>
      simp only
      refine I.set hi (fun _ _ _ => rfl) (fun q h => ?_) (fun _ h => Or.inl h) (fun p h => ⟨?_, ?_⟩) (fun p _ => ?_)
        (MethOk.plain (fun p hp => ?_) (Or.inl rfl))
      · exact (not_owns_plain (Or.inl rfl) q h).elim
      · rcases h with h | h
        · rcases List.mem_append.mp h with h | h
          · exact Or.inl (Or.inl h)
          · exact Or.inr (Or.inr (List.mem_singleton.mp h).symm)
        · cases h
      · exact not_owns_plain (Or.inl rfl) p
      · exact not_owns_plain (Or.inl rfl) p
      · rcases List.mem_append.mp hp with h | h
        · exact T.held p h
        · exact (I.var p (List.mem_singleton.mp h).symm).1
    | create f =>
      simp only
      by_cases hf : f = some 0
      · rw [if_pos hf]
        refine I.set hi (fun _ _ _ => rfl) (fun q h => ?_) (fun _ h => Or.inl h) (fun p h => ⟨?_, ?_⟩) (fun p _ => ?_)
          (MethOk.plain T.held (Or.inr (Or.inr (Or.inl rfl))))
        · exact (not_owns_plain (Or.inr (Or.inr (Or.inl ⟨_, rfl⟩))) q h).elim
        · rcases h with h | h
          · exact Or.inl (Or.inl h)
          · cases h
        · exact not_owns_plain (Or.inr (Or.inr (Or.inl ⟨_, rfl⟩))) p
        · exact not_owns_plain (Or.inr (Or.inr (Or.inl ⟨_, rfl⟩))) p
      · rw [if_neg hf]
        have own : ∀ q, MethThread.owns { t with pc := .fill s.mem.heap.length 0 f } q → q = s.mem.heap.length := by
          rintro q (⟨k, f', h⟩ | h)
          · injection h with h1; exact h1.symm
          · cases h
        have old : ∀ p, s.mem.Full d p → ¬ MethThread.owns { t with pc := .fill s.mem.heap.length 0 f } p := by
          intro p hp ho
          have := lt_of_live hp
          rw [own p ho] at this
          exact Nat.lt_irrefl _ this
        have ext : ∀ (p : Nat) o, s.mem.heap[p]? = some o → (s.mem.heap ++ [some d.fresh])[p]? = some o := by
          intro p o h
          rw [List.getElem?_append_left (lt_of_live h)]; exact h
        refine I.set hi (fun q hq _ => List.getElem?_append_left hq) (fun q h => Or.inr (Nat.le_of_eq (own q h).symm))
          (fun _ h => Or.inl h) (fun p h => ?_) (fun p hp => old p (I.var p hp).1)
          ⟨fun h => (by cases h), fun p hp => (ext p _ (T.held p hp) : (s.mem.heap ++ [some d.fresh])[p]? = _), fun p hp => (by cases hp), fun p k f' hp => ?_, fun p hp => (by cases hp)⟩
        · rcases h with h | h
          · exact ⟨Or.inl (Or.inl h), old p (T.held p h)⟩
          · cases h
        · injection hp with h1 h2 h3
          subst h1 h2
          exact ⟨by rw [List.getElem?_append_right (Nat.le_refl _), Nat.sub_self]; rfl, Nat.zero_le _⟩
    | fill p k f =>
      have F := T.fill p k f hpc
      have hown : t.owns p := Or.inl ⟨k, f, hpc⟩
      simp only
      cases hg : d.sets[k]? with
      | none =>
        simp only
        have hk : k = d.sets.length := Nat.le_antisymm F.2 (List.getElem?_eq_none_iff.mp hg)
        have hfull : s.mem.Full d p := by unfold MethMem.Full; rw [F.1, hk]
        refine I.set hi (fun _ _ _ => rfl) (fun q h => ?_) (fun _ h => Or.inl h) (fun q h => ⟨?_, ?_⟩) (fun q _ => ?_)
          ⟨fun h => (by cases h), T.held, fun q hq => ?_, fun q _ _ hq => (by cases hq), fun q hq => (by cases hq)⟩
        · exact (not_owns_plain (Or.inr (Or.inr (Or.inl ⟨_, rfl⟩))) q h).elim
        · rcases h with h | h
          · exact Or.inl (Or.inl h)
          · injection h with h; injection h with h; subst h; exact Or.inr (Or.inl hown)
        · exact not_owns_plain (Or.inr (Or.inr (Or.inl ⟨_, rfl⟩))) q
        · exact not_owns_plain (Or.inr (Or.inr (Or.inl ⟨_, rfl⟩))) q
        · injection hq with hq; injection hq with hq; subst hq; exact hfull
      | some g =>
        simp only
        by_cases hf : f = some (k + 1)
        · rw [if_pos hf]
          have own : ∀ q, MethThread.owns { t with pc := .discard p } q → q = p := by
            rintro q (⟨k, f', h⟩ | h)
            · cases h
            · injection h with h; exact h.symm
          refine I.set hi (fun _ _ _ => rfl) (fun q h => Or.inl (by rw [own q h]; exact hown)) (fun _ h => Or.inl h)
            (fun q h => ?_) (fun q hq ho => ?_)
            ⟨fun h => (by cases h), T.held, fun q hq => (by cases hq), fun q _ _ hq => (by cases hq), fun q hq => ?_⟩
          · rcases h with h | h
            · exact ⟨Or.inl (Or.inl h), fun ho => I.reach i i t t q hi hi (Or.inl h) (by rw [own q ho]; exact hown)⟩
            · cases h
          · exact (I.var q hq).2 i t hi (by rw [own q ho]; exact hown)
          · injection hq with hq; subst hq; exact ⟨_, F.1⟩
        · rw [if_neg hf, F.1]
          simp only
          have own : ∀ q, MethThread.owns { t with pc := .fill p (k + 1) f } q → q = p := by
            rintro q (⟨k, f', h⟩ | h)
            · injection h with h; exact h.symm
            · cases h
          have ne : ∀ q, ¬ t.owns q → p ≠ q := fun q hn e => hn (e ▸ hown)
          refine I.set hi (fun q _ hn => List.getElem?_set_ne (ne q hn)) (fun q h => Or.inl (by rw [own q h]; exact hown))
            (fun _ h => Or.inl h) (fun q h => ?_) (fun q hq ho => ?_)
            ⟨fun h => (by cases h), fun q hq => ?_, fun q hq => (by cases hq), fun q k' f' hq => ?_, fun q hq => (by cases hq)⟩
          · rcases h with h | h
            · exact ⟨Or.inl (Or.inl h), fun ho => I.reach i i t t q hi hi (Or.inl h) (by rw [own q ho]; exact hown)⟩
            · cases h
          · exact (I.var q hq).2 i t hi (by rw [own q ho]; exact hown)
          · show (s.mem.heap.set p _)[q]? = _
            rw [List.getElem?_set_ne (ne q (I.reach i i t t q hi hi (Or.inl hq)))]
            exact T.held q hq
          · injection hq with h1 h2 h3
            subst h1 h2
            refine ⟨?_, (List.getElem?_eq_some_iff.mp hg).1⟩
            show (s.mem.heap.set p _)[p]? = _
            rw [List.getElem?_set_self (lt_of_live F.1), upTo_succ d hg]
    | discard p =>
      obtain ⟨o, ho⟩ := T.discard p hpc
      have hown : t.owns p := Or.inr hpc
      simp only [ho]
      have ne : ∀ q, ¬ t.owns q → p ≠ q := fun q hn e => hn (e ▸ hown)
      refine I.set hi (fun q _ hn => List.getElem?_set_ne (ne q hn)) (fun q h => ?_) (fun _ h => Or.inl h) (fun q h => ⟨?_, ?_⟩)
        (fun q _ => ?_) (MethOk.plain (fun q hq => ?_) (Or.inr (Or.inr (Or.inl rfl))))
      · exact (not_owns_plain (Or.inr (Or.inr (Or.inl ⟨_, rfl⟩))) q h).elim
      · rcases h with h | h
        · exact Or.inl (Or.inl h)
        · cases h
      · exact not_owns_plain (Or.inr (Or.inr (Or.inl ⟨_, rfl⟩))) q
      · exact not_owns_plain (Or.inr (Or.inr (Or.inl ⟨_, rfl⟩))) q
      · show (s.mem.heap.set p _)[q]? = _
        rw [List.getElem?_set_ne (ne q (I.reach i i t t q hi hi (Or.inl hq)))]
        exact T.held q hq
    | store l =>
      have hno : ∀ q, ¬ t.owns q := fun q => not_owns_plain (Or.inr (Or.inr (Or.inl ⟨l, hpc⟩))) q
      simp only
      by_cases hr : d.rereads
      · rw [if_pos hr]
        refine I.set hi (fun _ _ _ => rfl) (fun q h => ?_) (fun p h => Or.inr (Or.inr ?_)) (fun p h => ⟨?_, ?_⟩) (fun p _ => ?_)
          (MethOk.plain (fun p hp => T.held p hp) (Or.inr (Or.inl rfl)))
        · exact (not_owns_plain (Or.inr (Or.inl rfl)) q h).elim
        · rw [hpc]; exact congrArg MethPc.store h
        · rcases h with h | h
          · exact Or.inl (Or.inl h)
          · cases h
        · exact not_owns_plain (Or.inr (Or.inl rfl)) p
        · exact not_owns_plain (Or.inr (Or.inl rfl)) p
      · rw [if_neg hr]
        refine I.set hi (fun _ _ _ => rfl) (fun q h => ?_) (fun p h => Or.inr (Or.inr ?_)) (fun p h => ⟨?_, ?_⟩) (fun p _ => ?_)
          (MethOk.plain (fun p hp => ?_) (Or.inl rfl))
        · exact (not_owns_plain (Or.inl rfl) q h).elim
        · rw [hpc]; exact congrArg MethPc.store h
        · rcases h with h | h
          · rcases List.mem_append.mp h with h | h
            · exact Or.inl (Or.inl h)
            · rw [← List.mem_singleton.mp h] at hpc; exact Or.inl (Or.inr hpc)
          · cases h
        · exact not_owns_plain (Or.inl rfl) p
        · exact not_owns_plain (Or.inl rfl) p
        · rcases List.mem_append.mp hp with h | h
          · exact T.held p h
          · rw [← List.mem_singleton.mp h] at hpc; exact T.store p hpc
    | fault => exact (T.pc hpc).elim

theorem methInv_start (d : MethDesc β) (calls : List (List MethFail)) : MethInv d (methThreads calls) := by
  have key : ∀ (i : Nat) t, (methThreads calls : MethState β).threads[i]? = some t → t.pc = .idle ∧ t.held = [] := by
    intro i t h
    obtain ⟨c, _, rfl⟩ := List.mem_map.mp (List.mem_of_getElem? h)
    exact ⟨rfl, rfl⟩
  refine ⟨fun p h => (by cases h), fun i t h => ?_, fun i j t u p _ h _ => ?_, fun i j t u p _ h _ _ => ?_⟩
  · exact MethOk.plain (fun p hp => by rw [(key i t h).2] at hp; cases hp) (Or.inl (key i t h).1)
  · exact not_owns_plain (Or.inl (key j u h).1) p
  · exact not_owns_plain (Or.inl (key j u h).1) p

theorem methInv_run {d : MethDesc β} (sched : List Nat) {s : MethState β} (I : MethInv d s) : MethInv d (s.run d sched) := by
  induction sched generalizing s with
  | nil => exact I
  | cons i rest ih => exact ih (methInv_step I i)

/-- **C93**: any number of threads make any number of calls each, in any order of their steps, and any of their allocations fail.  At
every moment: no thread has used or freed freed memory, and every method any thread ever got is there and has all its settings. -/
theorem C93_complete (d : MethDesc β) (calls : List (List MethFail)) (schedule : List Nat) (t : MethThread)
    (ht : t ∈ ((methThreads calls).run d schedule).threads) :
    t.pc ≠ .fault ∧ ∀ p, some p ∈ t.held →
      ((methThreads calls).run d schedule).mem.heap[p]? = some (some (d.sets.foldl (fun o f => f o) d.fresh)) := by
  obtain ⟨i, hi⟩ := List.getElem?_of_mem ht
  have h := (methInv_run schedule (methInv_start d calls)).ok i t hi
  refine ⟨h.pc, fun p hp => ?_⟩
  have := h.held p hp
  unfold MethMem.Full MethDesc.upTo at this
  rw [List.take_length] at this
  exact this

/-- The assertions do not depend on the NID. -/
theorem asserts_nid (c : GCipher) : cipherAsserts c = cipherAsserts { c with nid := .undef } := rfl

/-- **C93**, ciphers: every method any thread got for one of the ciphers of the engine is the one a program with a single thread gets;
and making it does not end the program. -/
theorem C93_cipher_complete (kuzMgm magmaMgm : Nid) (c : GCipher) (hc : c ∈ gost_cipher_array kuzMgm magmaMgm)
    (calls : List (List MethFail)) (schedule : List Nat) (t : MethThread)
    (ht : t ∈ ((methThreads calls).run (cipherDesc c) schedule).threads) :
    t.pc ≠ .fault ∧ ∃ e, GOST_init_cipher c = some e ∧ ∀ p, some p ∈ t.held →
      ((methThreads calls).run (cipherDesc c) schedule).mem.heap[p]? = some (some e) := by
  have h := C93_complete (cipherDesc c) calls schedule t ht
  have hs : cipherAsserts c = true := by
    simp only [gost_cipher_array, List.mem_cons, List.not_mem_nil, or_false] at hc
    rcases hc with rfl | rfl | rfl | rfl | rfl | rfl | rfl | rfl | rfl | rfl | rfl | rfl | rfl | rfl | rfl | rfl | rfl | rfl | rfl | rfl <;>
      (rw [asserts_nid]; dsimp only; decide)
  refine ⟨h.1, _, (by unfold GOST_init_cipher; rw [if_pos hs]; rfl), h.2⟩

/-- Every method there is has all its settings, or a thread is working on it. -/
def MethTidy (d : MethDesc β) (s : MethState β) : Prop :=
  ∀ p o, s.mem.heap[p]? = some (some o) → s.mem.Full d p ∨ ∃ (i : Nat) (t : MethThread), s.threads[i]? = some t ∧ t.owns p

theorem methTidy_step {d : MethDesc β} {s : MethState β} (I : MethInv d s) (D : MethTidy d s) (i : Nat) : MethTidy d (s.step d i) := by
  have I' := methInv_step I i
  unfold MethState.step at I' ⊢
  cases hi : s.threads[i]? with
  | none => exact D
  | some t =>
    rw [hi] at I'
    have hlen : i < s.threads.length := (List.getElem?_eq_some_iff.mp hi).1
    have T := I.ok i t hi
    -- objects the thread did not work on
    have old : ∀ (m' : MethMem β) (t' : MethThread) (p : Nat) o, ¬ t.owns p → s.mem.heap[p]? = some (some o) → m'.heap[p]? = s.mem.heap[p]? →
        m'.Full d p ∨ ∃ (j : Nat) (u : MethThread), (s.threads.set i t')[j]? = some u ∧ u.owns p := by
      intro m' t' p o hn h he
      rcases D p o h with h1 | ⟨j, u, hu, ho⟩
      · exact Or.inl (he.trans h1)
      · refine Or.inr ⟨j, u, ?_, ho⟩
        have hj : i ≠ j := by
          intro e
          subst e
          rw [hi] at hu
          injection hu with hu
          subst hu
          exact hn ho
        rw [List.getElem?_set_ne hj]; exact hu
    have here : ∀ (t' : MethThread) (p : Nat), t'.owns p →
        ∃ (j : Nat) (u : MethThread), (s.threads.set i t')[j]? = some u ∧ u.owns p :=
      fun t' p h => ⟨i, t', List.getElem?_set_self hlen, h⟩
    intro p o h
    simp only at h I' ⊢
    unfold methStep at h I' ⊢
    cases hpc : t.pc with
    | idle =>
      simp only [hpc] at h ⊢
      have hn := not_owns_plain (Or.inl hpc) p
      cases htd : t.todo with
      | nil => simp only [htd] at h ⊢; exact old _ _ p o hn h rfl
      | cons f r => simp only [htd] at h ⊢; exact old _ _ p o hn h rfl
    | again =>
      simp only [hpc] at h ⊢
      exact old _ _ p o (not_owns_plain (Or.inr (Or.inl hpc)) p) h rfl
    | create f =>
      simp only [hpc] at h ⊢
      have hn := not_owns_plain (Or.inr (Or.inr (Or.inr ⟨f, hpc⟩))) p
      by_cases hf : f = some 0
      · simp only [hf, if_true] at h ⊢
        exact old _ _ p o hn h rfl
      · simp only [hf, if_false] at h ⊢
        by_cases hp : p < s.mem.heap.length
        · have e : (s.mem.heap ++ [some d.fresh])[p]? = s.mem.heap[p]? := List.getElem?_append_left hp
          exact old _ _ p o hn (e ▸ h) e
        · have hp2 : p = s.mem.heap.length := by
            have := lt_of_live (m := ⟨s.mem.var, s.mem.heap ++ [some d.fresh]⟩) h
            simp at this
            omega
          subst hp2
          exact Or.inr (here _ _ (Or.inl ⟨0, f, rfl⟩))
    | fill q k f =>
      have F := T.fill q k f hpc
      have own : ∀ p, t.owns p → p = q := by
        rintro p (⟨k', f', h'⟩ | h') <;> rw [hpc] at h'
        · injection h' with h'; exact h'.symm
        · cases h'
      simp only [hpc] at h ⊢
      by_cases hpq : p = q
      · subst hpq
        cases hg : d.sets[k]? with
        | none =>
          have hk : k = d.sets.length := Nat.le_antisymm F.2 (List.getElem?_eq_none_iff.mp hg)
          refine Or.inl ?_
          unfold MethMem.Full
          rw [← hk]; exact F.1
        | some g =>
          simp only
          by_cases hf : f = some (k + 1)
          · rw [if_pos hf]
            exact Or.inr (here _ _ (Or.inr rfl))
          · rw [if_neg hf, F.1]
            exact Or.inr (here _ _ (Or.inl ⟨k + 1, f, rfl⟩))
      · have hn : ¬ t.owns p := fun ho => hpq (own p ho)
        cases hg : d.sets[k]? with
        | none => simp only [hg] at h ⊢; exact old _ _ p o hn h rfl
        | some g =>
          simp only [hg] at h ⊢
          by_cases hf : f = some (k + 1)
          · rw [if_pos hf] at h ⊢
            exact old _ _ p o hn h rfl
          · rw [if_neg hf, F.1] at h ⊢
            have e : (s.mem.heap.set q (some (g (d.upTo k))))[p]? = s.mem.heap[p]? := List.getElem?_set_ne (fun e => hpq e.symm)
            exact old _ _ p o hn (e ▸ h) e
    | discard q =>
      obtain ⟨x, hx⟩ := T.discard q hpc
      have own : ∀ p, t.owns p → p = q := by
        rintro p (⟨k', f', h'⟩ | h') <;> rw [hpc] at h'
        · cases h'
        · injection h' with h'; exact h'.symm
      simp only [hpc, hx] at h ⊢
      by_cases hpq : p = q
      · subst hpq
        rw [List.getElem?_set_self (lt_of_live hx)] at h
        cases h
      · have e : (s.mem.heap.set q none)[p]? = s.mem.heap[p]? := List.getElem?_set_ne (fun e => hpq e.symm)
        exact old _ _ p o (fun ho => hpq (own p ho)) (e ▸ h) e
    | store l =>
      simp only [hpc] at h ⊢
      exact old _ _ p o (not_owns_plain (Or.inr (Or.inr (Or.inl ⟨l, hpc⟩))) p) h rfl
    | fault => exact (T.pc hpc).elim

theorem methTidy_run {d : MethDesc β} (sched : List Nat) {s : MethState β} (I : MethInv d s) (D : MethTidy d s) : MethTidy d (s.run d sched) := by
  induction sched generalizing s with
  | nil => exact D
  | cons i rest ih => exact ih (methInv_step I i) (methTidy_step I D i)

/-- **C93**: what a failed call made is freed: when no thread is under way, every method there is has all its settings. -/
theorem C93_failed_freed (d : MethDesc β) (calls : List (List MethFail)) (schedule : List Nat)
    (h : ∀ t ∈ ((methThreads calls).run d schedule).threads, t.pc = .idle) (p : Nat) (o : β)
    (ho : ((methThreads calls).run d schedule).mem.heap[p]? = some (some o)) : o = d.sets.foldl (fun o f => f o) d.fresh := by
  have D : MethTidy d (methThreads calls) := fun p o h => by cases h
  rcases methTidy_run schedule (methInv_start d calls) D p o ho with hf | ⟨i, t, hi, hown⟩
  · unfold MethMem.Full MethDesc.upTo at hf
    rw [List.take_length, ho] at hf
    injection hf with hf; injection hf
  · exact (not_owns_plain (Or.inl (h t (List.mem_of_getElem? hi))) p hown).elim

/-! ### Without failures -/

/-- The thread may still make a method. -/
def mayCreate (m : MethMem β) (t : MethThread) : Bool :=
  match t.pc with
  | .create _ => true
  | .idle => m.var.isNone
  | _ => false

/-- What holds of a thread when no allocation fails. -/
structure MethGood (m : MethMem β) (t : MethThread) : Prop where
  todo : ∀ f, f ∈ t.todo → f = none
  held : none ∉ t.held
  pc : t.pc = .idle ∨ (t.pc = .again ∧ m.var.isSome) ∨ t.pc = .create none ∨ (∃ p k, t.pc = .fill p k none) ∨ (∃ p, t.pc = .store (some p)) ∨
    t.pc = .fault

theorem countP_set_le {α : Type} (p q : α → Bool) (l : List α) (i : Nat) (x y : α) (h : l[i]? = some x) (hpq : ∀ z, q z = true → p z = true) :
    (l.set i y).countP q + (p x).toNat ≤ l.countP p + (q y).toNat := by
  induction l generalizing i with
  | nil => cases h
  | cons a l ih =>
    have mono : l.countP q ≤ l.countP p := List.countP_mono_left fun z _ hz => hpq z hz
    cases i with
    | zero =>
      injection h with h; subst h
      rw [List.set_cons_zero, List.countP_cons, List.countP_cons]
      cases p a <;> cases q y <;> simp <;> omega
    | succ i =>
      have := ih i h
      rw [List.set_cons_succ, List.countP_cons, List.countP_cons]
      have hqp := hpq a
      cases ha : q a
      · cases hb : p a <;> simp <;> omega
      · rw [hqp ha]; simp; omega

theorem good_step {d : MethDesc β} {s : MethState β} (G : ∀ t ∈ s.threads, MethGood s.mem t)
    (C : s.mem.heap.length + s.threads.countP (mayCreate s.mem) ≤ s.threads.length) (i : Nat) :
    (∀ t ∈ (s.step d i).threads, MethGood (s.step d i).mem t) ∧
      (s.step d i).mem.heap.length + (s.step d i).threads.countP (mayCreate (s.step d i).mem) ≤ (s.step d i).threads.length := by
  unfold MethState.step
  cases hi : s.threads[i]? with
  | none => exact ⟨G, C⟩
  | some t =>
    have T := G t (List.mem_of_getElem? hi)
    simp only
    -- what is to be shown of the step
    have key : ∀ (m' : MethMem β) (t' : MethThread), methStep d s.mem t = (m', t') → (m'.var = s.mem.var ∨ m'.var.isSome) → MethGood m' t' →
        m'.heap.length + (mayCreate m' t').toNat ≤ s.mem.heap.length + (mayCreate s.mem t).toNat →
        (∀ u ∈ s.threads.set i (methStep d s.mem t).2, MethGood (methStep d s.mem t).1 u) ∧
          (methStep d s.mem t).1.heap.length + (s.threads.set i (methStep d s.mem t).2).countP (mayCreate (methStep d s.mem t).1) ≤
            (s.threads.set i (methStep d s.mem t).2).length := by
      intro m' t' e hv g hc
      rw [e]
      refine ⟨fun u hu => ?_, ?_⟩
      · rcases List.mem_or_eq_of_mem_set hu with h | h
        · have U := G u h
          refine ⟨U.todo, U.held, ?_⟩
          rcases U.pc with h | ⟨h, h'⟩ | h
          · exact Or.inl h
          · exact Or.inr (Or.inl ⟨h, by rcases hv with hv | hv; · rw [hv]; exact h'
                                        · exact hv⟩)
          · exact Or.inr (Or.inr h)
        · rw [h]; exact g
      · have mono : ∀ u, mayCreate m' u = true → mayCreate s.mem u = true := by
          intro u hu
          unfold mayCreate at hu ⊢
          cases hp : u.pc <;> simp only [hp] at hu ⊢ <;> first | exact hu | skip
          rcases hv with hv | hv
          · rw [← hv]; exact hu
          · cases hm : m'.var with
            | none => rw [hm] at hv; cases hv
            | some x => rw [hm] at hu; cases hu
        have h1 := countP_set_le (mayCreate s.mem) (mayCreate m') s.threads i t t' hi mono
        rw [List.length_set]
        simp only at hc ⊢
        omega
    cases hpc : t.pc with
    | idle =>
      cases htd : t.todo with
      | nil =>
        refine key s.mem t (by unfold methStep; rw [hpc, htd]) (Or.inl rfl) T (Nat.le_refl _)
      | cons f rest =>
        have hf : f = none := T.todo f (by rw [htd]; exact List.mem_cons_self)
        have hrest : ∀ g, g ∈ rest → g = none := fun g hg => T.todo g (by rw [htd]; exact List.mem_cons_of_mem _ hg)
        subst hf
        by_cases hv : s.mem.var.isSome
        · refine key s.mem { t with todo := rest, pc := .again } (by unfold methStep; rw [hpc, htd]; simp only [hv, if_true]) (Or.inl rfl)
            ⟨hrest, T.held, Or.inr (Or.inl ⟨rfl, hv⟩)⟩ (by simp [mayCreate])
        · refine key s.mem { t with todo := rest, pc := .create none }
            (by unfold methStep; rw [hpc, htd]; simp only [hv, if_false, Bool.false_eq_true]) (Or.inl rfl)
            ⟨hrest, T.held, Or.inr (Or.inr (Or.inl rfl))⟩ ?_
          have : s.mem.var = none := by cases h : s.mem.var with | none => rfl | some x => rw [h] at hv; exact (hv rfl).elim
          simp [mayCreate, hpc, this]
    | again =>
      have hv : s.mem.var.isSome := by
        rcases T.pc with h | ⟨_, h⟩ | h | ⟨p, k, h⟩ | ⟨p, h⟩ | h
        · rw [hpc] at h; cases h
        · exact h
        all_goals (rw [hpc] at h; cases h)
      refine key s.mem { t with pc := .idle, held := t.held ++ [s.mem.var] } (by unfold methStep; rw [hpc]) (Or.inl rfl)
        ⟨T.todo, fun h => ?_, Or.inl rfl⟩ ?_
      · rcases List.mem_append.mp h with h | h
        · exact T.held h
        · rw [← List.mem_singleton.mp h] at hv; cases hv
      · cases h : s.mem.var with
        | none => rw [h] at hv; cases hv
        | some x => simp [mayCreate, h]
    | create f =>
      have hf : f = none := by
        rcases T.pc with h | ⟨h, _⟩ | h | ⟨p, k, h⟩ | ⟨p, h⟩ | h <;> rw [hpc] at h
        · cases h
        · cases h
        · injection h
        all_goals cases h
      subst hf
      refine key { s.mem with heap := s.mem.heap ++ [some d.fresh] } { t with pc := .fill s.mem.heap.length 0 none }
        (by unfold methStep; rw [hpc]; rfl) (Or.inl rfl) ⟨T.todo, T.held, Or.inr (Or.inr (Or.inr (Or.inl ⟨_, _, rfl⟩)))⟩ ?_
      simp [mayCreate, hpc]
    | fill p k f =>
      have hf : f = none := by
        rcases T.pc with h | ⟨h, _⟩ | h | ⟨p, k, h⟩ | ⟨p, h⟩ | h <;> rw [hpc] at h
        · cases h
        · cases h
        · cases h
        · injection h
        all_goals cases h
      subst hf
      cases hg : d.sets[k]? with
      | none =>
        exact key s.mem { t with pc := .store (some p) } (by unfold methStep; rw [hpc]; simp only [hg]) (Or.inl rfl)
          ⟨T.todo, T.held, Or.inr (Or.inr (Or.inr (Or.inr (Or.inl ⟨_, rfl⟩))))⟩ (by simp [mayCreate])
      | some g =>
        cases hh : s.mem.heap[p]? with
        | none =>
          exact key s.mem { t with pc := .fault } (by unfold methStep; rw [hpc]; simp only [hg, hh, reduceCtorEq, if_false]) (Or.inl rfl)
            ⟨T.todo, T.held, Or.inr (Or.inr (Or.inr (Or.inr (Or.inr rfl))))⟩ (by simp [mayCreate])
        | some o =>
          cases o with
          | none =>
            exact key s.mem { t with pc := .fault } (by unfold methStep; rw [hpc]; simp only [hg, hh, reduceCtorEq, if_false]) (Or.inl rfl)
              ⟨T.todo, T.held, Or.inr (Or.inr (Or.inr (Or.inr (Or.inr rfl))))⟩ (by simp [mayCreate])
          | some o =>
            exact key { s.mem with heap := s.mem.heap.set p (some (g o)) } { t with pc := .fill p (k + 1) none }
              (by unfold methStep; rw [hpc]; simp only [hg, hh, reduceCtorEq, if_false]) (Or.inl rfl)
              ⟨T.todo, T.held, Or.inr (Or.inr (Or.inr (Or.inl ⟨_, _, rfl⟩)))⟩ (by simp [mayCreate])
    | discard p =>
      rcases T.pc with h | ⟨h, _⟩ | h | ⟨p, k, h⟩ | ⟨p, h⟩ | h <;> rw [hpc] at h <;> cases h
    | store l =>
      have hl : ∃ p, l = some p := by
        rcases T.pc with h | ⟨h, _⟩ | h | ⟨p, k, h⟩ | ⟨p, h⟩ | h <;> rw [hpc] at h <;> first | cases h | skip
        exact ⟨_, rfl⟩
      obtain ⟨p, rfl⟩ := hl
      cases hr : d.rereads with
      | true =>
        exact key { s.mem with var := some p } { t with pc := .again } (by unfold methStep; rw [hpc]; simp only [hr, if_true]) (Or.inr rfl)
          ⟨T.todo, T.held, Or.inr (Or.inl ⟨rfl, rfl⟩)⟩ (by simp [mayCreate])
      | false =>
        refine key { s.mem with var := some p } { t with pc := .idle, held := t.held ++ [some p] }
          (by unfold methStep; rw [hpc]; simp only [hr, if_false, Bool.false_eq_true]) (Or.inr rfl)
          ⟨T.todo, fun h => ?_, Or.inl rfl⟩ (by simp [mayCreate])
        rcases List.mem_append.mp h with h | h
        · exact T.held h
        · cases List.mem_singleton.mp h
    | fault =>
      exact key s.mem t (by unfold methStep; rw [hpc]) (Or.inl rfl) T (Nat.le_refl _)

theorem good_run {d : MethDesc β} (sched : List Nat) {s : MethState β} (G : ∀ t ∈ s.threads, MethGood s.mem t)
    (C : s.mem.heap.length + s.threads.countP (mayCreate s.mem) ≤ s.threads.length) :
    (∀ t ∈ (s.run d sched).threads, MethGood (s.run d sched).mem t) ∧
      (s.run d sched).mem.heap.length + (s.run d sched).threads.countP (mayCreate (s.run d sched).mem) ≤ (s.run d sched).threads.length := by
  induction sched generalizing s with
  | nil => exact ⟨G, C⟩
  | cons i rest ih => exact ih (good_step G C i).1 (good_step G C i).2

theorem run_length (d : MethDesc β) (sched : List Nat) (s : MethState β) : (s.run d sched).threads.length = s.threads.length := by
  induction sched generalizing s with
  | nil => rfl
  | cons i rest ih =>
    refine (ih (s.step d i)).trans ?_
    unfold MethState.step
    cases s.threads[i]? with
    | none => rfl
    | some t => exact List.length_set

theorem good_start (calls : List (List MethFail)) (h : ∀ f, f ∈ calls.flatten → f = none) :
    (∀ t ∈ (methThreads calls : MethState β).threads, MethGood (methThreads calls : MethState β).mem t) ∧
    (methThreads calls : MethState β).mem.heap.length +
      (methThreads calls : MethState β).threads.countP (mayCreate (methThreads calls : MethState β).mem) ≤
      (methThreads calls : MethState β).threads.length := by
  refine ⟨fun t ht => ?_, ?_⟩
  · obtain ⟨c, hc, rfl⟩ := List.mem_map.mp ht
    exact ⟨fun f hf => h f (List.mem_flatten.mpr ⟨c, hc, hf⟩), by simp, Or.inl rfl⟩
  · have : (methThreads calls : MethState β).mem.heap.length = 0 := rfl
    rw [this, Nat.zero_add]
    exact List.countP_le_length

/-- **C93**: when no allocation fails every call delivers a method. -/
theorem C93_all_get_one (d : MethDesc β) (calls : List (List MethFail)) (h : ∀ f, f ∈ calls.flatten → f = none) (schedule : List Nat)
    (t : MethThread) (ht : t ∈ ((methThreads calls : MethState β).run d schedule).threads) : ∀ r ∈ t.held, ∃ p, r = some p := by
  have g := (good_run (d := d) schedule (good_start calls h).1 (good_start calls h).2).1 t ht
  intro r hr
  cases r with
  | none => exact (g.held hr).elim
  | some p => exact ⟨p, rfl⟩

/-- **C93**: when no allocation fails at most one method is made for each thread, however many calls it makes; with one thread, one. -/
theorem C93_one_each (d : MethDesc β) (calls : List (List MethFail)) (h : ∀ f, f ∈ calls.flatten → f = none) (schedule : List Nat) :
    ((methThreads calls : MethState β).run d schedule).mem.heap.length ≤ calls.length := by
  have g := (good_run (d := d) schedule (good_start calls h).1 (good_start calls h).2).2
  rw [run_length] at g
  have : (methThreads calls : MethState β).threads.length = calls.length := List.length_map ..
  omega

/-! ### Afterwards -/

/-- **C93**: once a method is there and no thread is under way, whatever calls are made by any threads in any order, and whatever would
fail, no further method is made, nothing shared is written, and every call delivers that method. -/
theorem C93_settled (d : MethDesc β) (s : MethState β) (p : Nat) (hv : s.mem.var = some p) (hi : ∀ t ∈ s.threads, t.pc = .idle)
    (schedule : List Nat) :
    (s.run d schedule).mem = s.mem ∧
    ∀ (i : Nat) t, (s.run d schedule).threads[i]? = some t → ∃ t0 k, s.threads[i]? = some t0 ∧ t.held = t0.held ++ List.replicate k (some p) := by
  have key : ∀ (sched : List Nat) (s1 : MethState β), s1.mem = s.mem →
      (∀ (i : Nat) t, s1.threads[i]? = some t → (t.pc = .idle ∨ t.pc = .again) ∧
        ∃ t0 k, s.threads[i]? = some t0 ∧ t.held = t0.held ++ List.replicate k (some p)) →
      (s1.run d sched).mem = s.mem ∧ ∀ (i : Nat) t, (s1.run d sched).threads[i]? = some t →
        ∃ t0 k, s.threads[i]? = some t0 ∧ t.held = t0.held ++ List.replicate k (some p) := by
    intro sched
    induction sched with
    | nil => intro s1 hm ht; exact ⟨hm, fun i t h => (ht i t h).2⟩
    | cons i rest ih =>
      intro s1 hm ht
      refine ih (s1.step d i) ?_ ?_
      · unfold MethState.step
        cases h : s1.threads[i]? with
        | none => exact hm
        | some t =>
          simp only
          unfold methStep
          rcases (ht i t h).1 with hp | hp <;> rw [hp]
          · cases t.todo <;> exact hm
          · exact hm
      · unfold MethState.step
        cases h : s1.threads[i]? with
        | none => exact ht
        | some t =>
          obtain ⟨hp, t0, k, h0, hh⟩ := ht i t h
          intro j u hu
          rcases getElem?_set_cases hu with ⟨rfl, rfl⟩ | ⟨_, hu⟩
          · unfold methStep
            rcases hp with hp | hp <;> rw [hp]
            · cases t.todo with
              | nil => exact ⟨Or.inl hp, t0, k, h0, hh⟩
              | cons f r =>
                simp only [hm, hv, Option.isSome_some, if_true]
                exact ⟨Or.inr trivial, t0, k, h0, hh⟩
            · exact ⟨Or.inl rfl, t0, k + 1, h0, by
                show t.held ++ [s1.mem.var] = _
                rw [hh, hm, hv, List.replicate_succ', List.append_assoc]⟩
          · exact ht j u hu
  exact key schedule s rfl fun i t h => ⟨Or.inl (hi t (List.mem_of_getElem? h)), t, 0, h, by simp⟩

/-! ### Steps -/

/-- An upper bound of the steps a thread has left. -/
def methLeft (d : MethDesc β) (t : MethThread) : Nat :=
  match t.pc with
  | .idle => t.todo.length * (d.sets.length + 6)
  | .again => t.todo.length * (d.sets.length + 6) + 1
  | .create _ => t.todo.length * (d.sets.length + 6) + (d.sets.length + 5)
  | .fill _ k _ => t.todo.length * (d.sets.length + 6) + ((d.sets.length - k) + 4)
  | .discard _ => t.todo.length * (d.sets.length + 6) + 3
  | .store _ => t.todo.length * (d.sets.length + 6) + 2
  | .fault => 0

theorem methLeft_step (d : MethDesc β) (m : MethMem β) (t : MethThread) : methLeft d (methStep d m t).2 ≤ methLeft d t - 1 := by
  obtain ⟨todo, pc, held⟩ := t
  unfold methStep
  cases pc with
  | idle =>
    cases todo with
    | nil => simp [methLeft]
    | cons f rest =>
      simp only [methLeft, List.length_cons, Nat.succ_mul]
      by_cases hv : m.var.isSome <;> simp only [hv, if_true, if_false, Bool.false_eq_true] <;> omega
  | again => simp [methLeft]
  | create f =>
    simp only
    by_cases hf : f = some 0 <;> simp only [hf, if_true, if_false, methLeft] <;> omega
  | fill p k f =>
    simp only
    cases hg : d.sets[k]? with
    | none => simp only [methLeft]; omega
    | some g =>
      have hk := (List.getElem?_eq_some_iff.mp hg).1
      simp only
      by_cases hf : f = some (k + 1)
      · simp only [hf, if_true, methLeft]; omega
      · simp only [hf, if_false]
        cases m.heap[p]? with
        | none => simp only [methLeft]; omega
        | some o => cases o <;> simp only [methLeft] <;> omega
  | discard p =>
    simp only
    cases m.heap[p]? with
    | none => simp only [methLeft]; omega
    | some o => cases o <;> simp only [methLeft] <;> omega
  | store l =>
    simp only
    cases d.rereads <;> simp [methLeft] <;> omega
  | fault => simp [methLeft]

theorem methLeft_run (d : MethDesc β) (sched : List Nat) (s : MethState β) (i : Nat) (t0 t : MethThread) (h0 : s.threads[i]? = some t0)
    (h : (s.run d sched).threads[i]? = some t) : methLeft d t ≤ methLeft d t0 - sched.count i := by
  induction sched generalizing s t0 with
  | nil =>
    rw [show (s.run d []).threads = s.threads from rfl, h0] at h
    injection h with h; subst h; simp
  | cons j rest ih =>
    by_cases hj : j = i
    · subst hj
      have hs : (s.step d j).threads[j]? = some (methStep d s.mem t0).2 := by
        unfold MethState.step
        rw [h0]
        exact List.getElem?_set_self (List.getElem?_eq_some_iff.mp h0).1
      have := ih (s.step d j) _ hs h
      have l := methLeft_step d s.mem t0
      rw [List.count_cons_self]
      omega
    · have hs : (s.step d j).threads[i]? = some t0 := by
        unfold MethState.step
        cases s.threads[j]? with
        | none => exact h0
        | some u => exact (List.getElem?_set_ne hj).trans h0
      have := ih (s.step d j) _ hs h
      rw [List.count_cons_of_ne hj]
      exact this

/-- A thread that has no steps left has made all its calls. -/
theorem methLeft_zero {d : MethDesc β} {t : MethThread} (h : methLeft d t = 0) (hf : t.pc ≠ .fault) : t.pc = .idle ∧ t.todo = [] := by
  obtain ⟨todo, pc, held⟩ := t
  cases pc with
  | idle =>
    refine ⟨rfl, ?_⟩
    cases todo with
    | nil => rfl
    | cons f r => simp only [methLeft, List.length_cons, Nat.succ_mul] at h; omega
  | fault => exact (hf rfl).elim
  | again => simp only [methLeft] at h; omega
  | create f => simp only [methLeft] at h; omega
  | fill p k f => simp only [methLeft] at h; omega
  | discard p => simp only [methLeft] at h; omega
  | store l => simp only [methLeft] at h; omega

/-- The calls made and the calls to make are all the calls. -/
def methCalls (t : MethThread) : Nat := t.held.length + t.todo.length + (if t.pc = .idle ∨ t.pc = .fault then 0 else 1)

theorem methCalls_step (d : MethDesc β) (m : MethMem β) (t : MethThread) (hf : (methStep d m t).2.pc ≠ .fault) :
    methCalls (methStep d m t).2 = methCalls t := by
  obtain ⟨todo, pc, held⟩ := t
  revert hf
  unfold methStep
  cases pc with
  | idle =>
    cases todo with
    | nil => intro _; rfl
    | cons f rest =>
      intro _
      by_cases hv : m.var.isSome <;> simp [hv, methCalls] <;> omega
  | again => intro _; simp [methCalls]; omega
  | create f =>
    intro _
    by_cases hf : f = some 0 <;> simp [hf, methCalls]
  | fill p k f =>
    simp only
    cases d.sets[k]? with
    | none => intro _; simp [methCalls]
    | some g =>
      by_cases hf : f = some (k + 1)
      · intro _; simp [hf, methCalls]
      · simp only [hf, if_false]
        cases m.heap[p]? with
        | none => intro h; exact (h rfl).elim
        | some o =>
          cases o with
          | none => intro h; exact (h rfl).elim
          | some o => intro _; simp [methCalls]
  | discard p =>
    simp only
    cases m.heap[p]? with
    | none => intro h; exact (h rfl).elim
    | some o =>
      cases o with
      | none => intro h; exact (h rfl).elim
      | some o => intro _; simp [methCalls]
  | store l =>
    intro _
    cases d.rereads <;> simp [methCalls] <;> omega
  | fault => intro h; exact (h rfl).elim

theorem methCalls_run (d : MethDesc β) (sched : List Nat) {s : MethState β} (I : MethInv d s) (i : Nat) (t0 t : MethThread)
    (h0 : s.threads[i]? = some t0) (h : (s.run d sched).threads[i]? = some t) : methCalls t = methCalls t0 := by
  induction sched generalizing s t0 with
  | nil =>
    rw [show (s.run d []).threads = s.threads from rfl, h0] at h
    injection h with h; subst h; rfl
  | cons j rest ih =>
    have I' := methInv_step I j
    by_cases hj : j = i
    · subst hj
      have hs : (s.step d j).threads[j]? = some (methStep d s.mem t0).2 := by
        unfold MethState.step
        rw [h0]
        exact List.getElem?_set_self (List.getElem?_eq_some_iff.mp h0).1
      exact (ih I' _ hs h).trans (methCalls_step d s.mem t0 (I'.ok j _ hs).pc)
    · have hs : (s.step d j).threads[i]? = some t0 := by
        unfold MethState.step
        cases s.threads[j]? with
        | none => exact h0
        | some u => exact (List.getElem?_set_ne hj).trans h0
      exact ih I' _ hs h

/-- **C93**: no thread waits for another.  A thread that makes `n` calls has returned from all of them once it was given `n` times the
number of settings plus 6 steps, whatever the others do and wherever they are stopped. -/
theorem C93_wait_free (d : MethDesc β) (calls : List (List MethFail)) (schedule : List Nat) (i : Nat) (c : List MethFail)
    (hc : calls[i]? = some c) (h : c.length * (d.sets.length + 6) ≤ schedule.count i) (t : MethThread)
    (ht : ((methThreads calls : MethState β).run d schedule).threads[i]? = some t) :
    t.pc = .idle ∧ t.todo = [] ∧ t.held.length = c.length := by
  have I := methInv_start (β := β) d calls
  have h0 : (methThreads calls : MethState β).threads[i]? = some ⟨c, .idle, []⟩ := by
    show (calls.map _)[i]? = _
    rw [List.getElem?_map, hc]; rfl
  have hl := methLeft_run d schedule _ i _ t h0 ht
  have hz : methLeft d t = 0 := by
    have : methLeft d (⟨c, .idle, []⟩ : MethThread) = c.length * (d.sets.length + 6) := rfl
    omega
  have hp := ((methInv_run schedule I).ok i t ht).pc
  obtain ⟨h1, h2⟩ := methLeft_zero hz hp
  have hcalls := methCalls_run d schedule I i _ t h0 ht
  refine ⟨h1, h2, ?_⟩
  unfold methCalls at hcalls
  rw [h1, h2] at hcalls
  simpa using hcalls

/-! ### What does not hold -/

/-- A small descriptor. -/
def smallDesc (rereads : Bool) : MethDesc Nat := ⟨0, [(· + 1), (· * 3)], rereads⟩

/-- **C93**: what is made is not all freed with the module, even if no allocation fails and every thread has returned: two first calls
overlap, two methods are made, and the member, through which `GOST_deinit_cipher` and `GOST_deinit_digest` free, refers to one of them. -/
theorem C93_leak_false : ¬ ∀ (d : MethDesc Nat) (calls : List (List MethFail)) (schedule : List Nat),
    (∀ f, f ∈ calls.flatten → f = none) → (∀ t ∈ ((methThreads calls : MethState Nat).run d schedule).threads, t.pc = .idle ∧ t.todo = []) →
    ∀ (p : Nat) o, ((methThreads calls : MethState Nat).run d schedule).mem.heap[p]? = some (some o) →
      ((methThreads calls : MethState Nat).run d schedule).mem.var = some p := by
  intro h
  have := h (smallDesc true) [[none], [none]] ([0, 1] ++ List.replicate 6 0 ++ List.replicate 6 1) (by decide) (by decide) 0 3 (by decide)
  revert this
  decide

/-- **C93**: a call can deliver NULL although none of its own allocations failed, because one of another thread failed in between. -/
theorem C93_own_success_false : ¬ ∀ (d : MethDesc Nat) (calls : List (List MethFail)) (schedule : List Nat) (i : Nat) (c : List MethFail)
    (t : MethThread), calls[i]? = some c → (∀ f ∈ c, f = none) →
    ((methThreads calls : MethState Nat).run d schedule).threads[i]? = some t → ∀ r ∈ t.held, ∃ p, r = some p := by
  intro h
  obtain ⟨p, hp⟩ := h (smallDesc true) [[none], [some 0]] ([0, 1] ++ List.replicate 5 0 ++ List.replicate 2 1 ++ [0]) 0 [none] ⟨[], .idle, [none]⟩
    rfl (by decide) (by decide) none (by decide)
  cases hp

/-! ### Examples -/

/-- Magma in ECB mode. -/
def magmaEcb : GCipher := ⟨.magma_ecb, magma_template_cipher, { flags := ciphEcb, init := true, do_cipher := true }⟩

/-- Three threads use Magma in ECB mode for the first time, two calls each, all in step: all have returned, and all hold methods with all
settings. -/
example : magmaEcb ∈ gost_cipher_array .undef .undef ∧
    let s := (methThreads [[none, none], [none, none], [none, none]]).run (cipherDesc magmaEcb) (List.replicate 20 [0, 1, 2]).flatten
    s.threads.map (fun t => t.held) = List.replicate 3 [some 2, some 2] ∧ (∀ t ∈ s.threads, t.pc = .idle ∧ t.todo = []) ∧
      s.mem.heap = List.replicate 3 (GOST_init_cipher magmaEcb) :=
  ⟨List.mem_of_getElem? (i := 9) rfl, by decide +kernel⟩

/-- The first call of a thread fails at its third allocation, the second succeeds. -/
example : ((methThreads [[some 2, none]]).run (smallDesc false) (List.replicate 20 0)).threads = [⟨[], .idle, [none, some 1]⟩] ∧
    ((methThreads [[some 2, none]]).run (smallDesc false) (List.replicate 20 0)).mem.heap = [none, some 3] := by decide

/-- The hypotheses of `C93_settled` are met after one call. -/
example : let s := (methThreads [[none], [some 0, none]]).run (smallDesc true) (List.replicate 8 0)
    s.mem.var = some 0 ∧ ∀ t ∈ s.threads, t.pc = .idle := by decide

end Gost
