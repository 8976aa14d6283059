import Verif.Model.ParamThreads

/-!
# C75: threads that look up engine parameters at the same time

`gost_params` is shared by all threads and used without a lock.

* With a value in the environment that nobody has looked up yet, two threads whose first lookups overlap read freed memory
  (`C75_first_lookup_false`); a thread that sets a parameter frees the string under a thread that has just looked it up
  (`C75_set_false`).
* Once every parameter has been looked up (for example by one thread when the program starts), and while nobody sets one, any
  number of threads in any order get the right texts, and no memory is written (`C75_after_startup_partial`, `C75_warm_partial`).
* Whatever happens, a text that a lookup delivers is the one of the environment when there is one (`C75_environment_wins`).
-/

namespace Gost

/-- The text a pointer of `gost_params` points to. -/
def textAt (m : ParamMem) (k : Nat) : Option CStr := (m.table k).bind (fun p => (m.heap[p]?).join)

/-- Every pointer of the table points to a string that was not freed, and a parameter without a string has no value in the
environment either. -/
def WarmMem (env : Env) (m : ParamMem) : Prop :=
  ∀ k, k < 3 → match m.table k with
    | some p => ∃ text : CStr, m.heap[p]? = some (some text)
    | none => envOf env k = none

/-- What a thread of lookups may be doing. -/
def WarmThread (m : ParamMem) (t : ParamThread) : Prop :=
  (∀ c ∈ t.todo, ∃ k, c = .lookup k) ∧
  (t.pc = .idle ∨ (∃ k, k < 3 ∧ t.pc = .again k ∧ m.table k ≠ none) ∨ ∃ k, k < 3 ∧ t.pc = .use k (m.table k) ∧ m.table k ≠ none) ∧
  ∀ x ∈ t.got, x.2 = if x.1 < 3 then textAt m x.1 else none

theorem warm_step {env : Env} {m : ParamMem} (hm : WarmMem env m) {t : ParamThread} (ht : WarmThread m t) :
    (paramStep env m t).1 = m ∧ WarmThread m (paramStep env m t).2 := by
  obtain ⟨h1, h2, h3⟩ := ht
  have add : ∀ (k : Nat) (r : Option CStr), (r = if k < 3 then textAt m k else none) → ∀ x ∈ t.got ++ [(k, r)],
      x.2 = if x.1 < 3 then textAt m x.1 else none := by
    intro k r hr x hx
    rcases List.mem_append.mp hx with hx | hx
    · exact h3 x hx
    · rw [List.mem_singleton] at hx; subst hx; exact hr
  unfold paramStep
  rcases h2 with hp | ⟨k, hk, hp, hne⟩ | ⟨k, hk, hp, hne⟩
  · rw [hp]
    simp only
    cases htd : t.todo with
    | nil => exact ⟨rfl, by rw [htd] at h1; exact ⟨by rw [htd]; exact h1, Or.inl hp, h3⟩⟩
    | cons c rest =>
      rw [htd] at h1
      have hrest : ∀ c ∈ rest, ∃ k, c = .lookup k := fun c hc => h1 c (List.mem_cons_of_mem _ hc)
      obtain ⟨k, rfl⟩ := h1 c List.mem_cons_self
      simp only
      by_cases hk : k ≥ 3
      · rw [if_pos hk]
        exact ⟨rfl, hrest, Or.inl rfl, add k none (by rw [if_neg (by omega)])⟩
      · rw [if_neg hk]
        have hw := hm k (by omega)
        cases htk : m.table k with
        | some p =>
          simp only [Option.isSome_some, if_true]
          exact ⟨trivial, hrest, Or.inr (Or.inl ⟨k, by omega, rfl, by rw [htk]; exact fun h => by cases h⟩), h3⟩
        | none =>
          rw [htk] at hw
          simp only [Option.isSome_none, Bool.false_eq_true, if_false, hw]
          exact ⟨trivial, hrest, Or.inl rfl, add k none (by simp [textAt, htk])⟩
  · rw [hp]
    exact ⟨rfl, h1, Or.inr (Or.inr ⟨k, hk, rfl, hne⟩), h3⟩
  · rw [hp]
    simp only
    cases htk : m.table k with
    | none => exact (hne htk).elim
    | some p =>
      have hw := hm k hk
      rw [htk] at hw
      obtain ⟨text, htext⟩ := hw
      simp only [htext]
      exact ⟨trivial, h1, Or.inl rfl, add k (some text) (by simp [hk, textAt, htk, htext])⟩

theorem warm_run {env : Env} (sched : List Nat) {s : ParamState} (hm : WarmMem env s.mem) (ht : ∀ t ∈ s.threads, WarmThread s.mem t) :
    (s.run env sched).mem = s.mem ∧ ∀ t ∈ (s.run env sched).threads, WarmThread s.mem t := by
  induction sched generalizing s with
  | nil => exact ⟨rfl, ht⟩
  | cons i rest ih =>
    have key : (s.step env i).mem = s.mem ∧ ∀ t ∈ (s.step env i).threads, WarmThread s.mem t := by
      unfold ParamState.step
      cases hi : s.threads[i]? with
      | none => exact ⟨rfl, ht⟩
      | some t =>
        obtain ⟨a, b⟩ := warm_step hm (ht t (List.mem_of_getElem? hi))
        refine ⟨a, fun t' ht' => ?_⟩
        rcases List.mem_or_eq_of_mem_set ht' with h | h
        · exact ht t' h
        · rw [h]; exact b
    have := ih (s := s.step env i) (by rw [key.1]; exact hm) (by rw [key.1]; exact key.2)
    rw [key.1] at this
    exact this

/-- **C75** (partial: false without the hypothesis, `C75_first_lookup_false`, `C75_set_false`): when every value of the environment has
been looked up before and the threads only look parameters up, then in every interleaving no thread touches freed memory, every
lookup delivers the text that was there at the start, and nothing shared is written. -/
theorem C75_warm_partial (env : Env) (m : ParamMem) (warm : WarmMem env m) (calls : List (List ParamCall))
    (lookups : ∀ c ∈ calls.flatten, ∃ k, c = .lookup k) (schedule : List Nat) (t : ParamThread)
    (ht : t ∈ ((paramThreads m calls).run env schedule).threads) :
    t.pc ≠ .fault ∧ (∀ k r, (k, r) ∈ t.got → r = if k < 3 then textAt m k else none) ∧
    ((paramThreads m calls).run env schedule).mem = m := by
  have h := warm_run (env := env) schedule (s := paramThreads m calls) warm (fun t ht => by
    obtain ⟨c, hc, rfl⟩ := List.mem_map.mp ht
    exact ⟨fun x hx => lookups x (List.mem_flatten.mpr ⟨c, hc, hx⟩), Or.inl rfl, fun x hx => by cases hx⟩)
  obtain ⟨h1, h2, h3⟩ := h.2 t ht
  refine ⟨?_, fun k r hr => h3 (k, r) hr, h.1⟩
  rcases h2 with h2 | ⟨_, _, h2, _⟩ | ⟨_, _, h2, _⟩ <;> rw [h2] <;> exact fun h => by cases h

/-! ### A program that looks all parameters up when it starts -/

/-- `gost_params` after one thread has looked all parameters up. -/
def startedMem (env : Env) : ParamMem :=
  ((paramThreads coldMem [[.lookup 0, .lookup 1, .lookup 2]]).run env (List.replicate 15 0)).mem

/-- One thread alone. -/
def paramSteps (env : Env) : Nat → ParamMem × ParamThread → ParamMem × ParamThread
  | 0, x => x
  | n + 1, x => paramSteps env n (paramStep env x.1 x.2)

theorem paramSteps_add (env : Env) (a b : Nat) (x : ParamMem × ParamThread) :
    paramSteps env (a + b) x = paramSteps env b (paramSteps env a x) := by
  induction a generalizing x with
  | zero => rw [Nat.zero_add]; rfl
  | succ a ih => rw [Nat.succ_add]; exact ih _

theorem run_alone (env : Env) (n : Nat) (m : ParamMem) (t : ParamThread) :
    ParamState.run env ⟨m, [t]⟩ (List.replicate n 0) = ⟨(paramSteps env n (m, t)).1, [(paramSteps env n (m, t)).2]⟩ := by
  induction n generalizing m t with
  | zero => rfl
  | succ n ih => exact ih _ _

/-- A first lookup of one thread, without interruption. -/
def lookedUp (env : Env) (m : ParamMem) (k : Nat) : ParamMem :=
  match envOf env k with
  | none => m
  | some v => storeAt m k (some v)

theorem lookup_alone (env : Env) (m : ParamMem) (k : Nat) (hk : k < 3) (hn : m.table k = none) (rest : List ParamCall)
    (got : List (Nat × Option CStr)) :
    ∃ n ≤ 5, paramSteps env n (m, ⟨.lookup k :: rest, .idle, got⟩) = (lookedUp env m k, ⟨rest, .idle, got ++ [(k, envOf env k)]⟩) := by
  have hk' : ¬ k ≥ 3 := by omega
  cases he : envOf env k with
  | none =>
    refine ⟨1, by omega, ?_⟩
    simp only [paramSteps, paramStep, if_neg hk', hn, Option.isSome_none, Bool.false_eq_true, if_false, he, lookedUp]
  | some v =>
    refine ⟨5, by omega, ?_⟩
    simp only [paramSteps, paramStep, if_neg hk', hn, Option.isSome_none, Bool.false_eq_true, if_false, he, lookedUp, freeAt, storeAt,
      if_true]
    rw [List.getElem?_append_right (Nat.le_refl _)]
    simp

theorem steps_done (env : Env) (m : ParamMem) (got : List (Nat × Option CStr)) (n : Nat) :
    paramSteps env n (m, ⟨[], .idle, got⟩) = (m, ⟨[], .idle, got⟩) := by
  induction n with
  | zero => rfl
  | succ n ih => exact ih

theorem started_eq (env : Env) : startedMem env = lookedUp env (lookedUp env (lookedUp env coldMem 0) 1) 2 := by
  have tab : ∀ (m : ParamMem) (k j : Nat), j ≠ k → (lookedUp env m k).table j = m.table j := by
    intro m k j hjk
    unfold lookedUp
    cases envOf env k with
    | none => rfl
    | some v => simp [storeAt, hjk]
  obtain ⟨a, ha, h1⟩ := lookup_alone env coldMem 0 (by omega) rfl [.lookup 1, .lookup 2] []
  obtain ⟨b, hb, h2⟩ := lookup_alone env (lookedUp env coldMem 0) 1 (by omega) (by rw [tab _ _ _ (by omega)]; rfl) [.lookup 2]
    ([] ++ [(0, envOf env 0)])
  obtain ⟨c, hc, h3⟩ := lookup_alone env (lookedUp env (lookedUp env coldMem 0) 1) 2 (by omega)
    (by rw [tab _ _ _ (by omega), tab _ _ _ (by omega)]; rfl) [] ([] ++ [(0, envOf env 0)] ++ [(1, envOf env 1)])
  have hn : 15 = a + (b + (c + (15 - a - b - c))) := by omega
  unfold startedMem
  rw [show paramThreads coldMem [[.lookup 0, .lookup 1, .lookup 2]] = ⟨coldMem, [⟨[.lookup 0, .lookup 1, .lookup 2], .idle, []⟩]⟩ from rfl,
    run_alone, hn, paramSteps_add, h1, paramSteps_add, h2, paramSteps_add, h3, steps_done]

attribute [local irreducible] startedMem

/-- A table whose pointers all point to strings. -/
def LiveMem (m : ParamMem) : Prop := ∀ k p, m.table k = some p → ∃ text : CStr, m.heap[p]? = some (some text)

theorem lookedUp_live {env : Env} {m : ParamMem} (h : LiveMem m) (k : Nat) :
    LiveMem (lookedUp env m k) ∧ (∀ j, j ≠ k → textAt (lookedUp env m k) j = textAt m j) ∧
    (m.table k = none → textAt (lookedUp env m k) k = envOf env k) := by
  unfold lookedUp
  cases he : envOf env k with
  | none => exact ⟨h, fun _ _ => rfl, fun hn => by simp [textAt, hn]⟩
  | some v =>
    have hnew : (m.heap ++ [some v])[m.heap.length]? = some (some v) := by
      rw [List.getElem?_append_right (Nat.le_refl _)]; simp
    have hold : ∀ {p : Nat} {text : CStr}, m.heap[p]? = some (some text) → (m.heap ++ [some v])[p]? = some (some text) := by
      intro p text hp
      rw [List.getElem?_append_left (List.getElem?_eq_some_iff.mp hp).1]; exact hp
    refine ⟨fun j p hj => ?_, fun j hjk => ?_, fun _ => ?_⟩
    · have hj' : (if j = k then some m.heap.length else m.table j) = some p := hj
      by_cases hjk : j = k
      · rw [if_pos hjk] at hj'
        have := Option.some.inj hj'
        subst this
        exact ⟨v, hnew⟩
      · rw [if_neg hjk] at hj'
        obtain ⟨text, ht⟩ := h j p hj'
        exact ⟨text, hold ht⟩
    · simp only [textAt, storeAt, if_neg hjk]
      cases hj : m.table j with
      | none => rfl
      | some p =>
        obtain ⟨text, ht⟩ := h j p hj
        simp only [Option.bind_some, ht, hold ht]
    · simp only [textAt, storeAt, if_true, Option.bind_some, hnew, Option.join_some]

theorem started_ok (env : Env) : LiveMem (startedMem env) ∧ ∀ k, k < 3 → textAt (startedMem env) k = envOf env k := by
  have tab : ∀ (m : ParamMem) (k j : Nat), j ≠ k → (lookedUp env m k).table j = m.table j := by
    intro m k j hjk
    unfold lookedUp
    cases envOf env k with
    | none => rfl
    | some v => simp [storeAt, hjk]
  rw [started_eq]
  obtain ⟨a1, a2, a3⟩ := lookedUp_live (env := env) (m := coldMem) (fun _ _ h => by cases h) 0
  obtain ⟨b1, b2, b3⟩ := lookedUp_live (env := env) a1 1
  obtain ⟨c1, c2, c3⟩ := lookedUp_live (env := env) b1 2
  refine ⟨c1, fun k hk => ?_⟩
  have hk' : k = 0 ∨ k = 1 ∨ k = 2 := by omega
  rcases hk' with rfl | rfl | rfl
  · rw [c2 0 (by omega), b2 0 (by omega), a3 rfl]
  · rw [c2 1 (by omega), b3 (by rw [tab _ _ _ (by omega)]; rfl)]
  · rw [c3 (by rw [tab _ _ _ (by omega), tab _ _ _ (by omega)]; rfl)]

theorem started_warm (env : Env) : WarmMem env (startedMem env) := by
  obtain ⟨h1, h2⟩ := started_ok env
  generalize startedMem env = m at h1 h2 ⊢
  intro k hk
  cases h : m.table k with
  | none => have := h2 k hk; simpa [textAt, h] using this.symm
  | some p => exact h1 k p h

/-- **C75** (partial): after one thread has looked up the three parameters, any number of threads that look parameters up, in any
order, get the values of the environment, and none touches freed memory. -/
theorem C75_after_startup_partial (env : Env) (calls : List (List ParamCall)) (lookups : ∀ c ∈ calls.flatten, ∃ k, c = .lookup k)
    (schedule : List Nat) (t : ParamThread) (ht : t ∈ ((paramThreads (startedMem env) calls).run env schedule).threads) :
    t.pc ≠ .fault ∧ ∀ k r, (k, r) ∈ t.got → r = if k < 3 then envOf env k else none := by
  have hw := started_warm env
  have ht2 := (started_ok env).2
  generalize startedMem env = m at ht hw ht2
  obtain ⟨a, b, _⟩ := C75_warm_partial env m hw calls lookups schedule t ht
  refine ⟨a, fun k r hr => ?_⟩
  rw [b k r hr]
  by_cases hk : k < 3
  · rw [if_pos hk, if_pos hk, ht2 k hk]
  · rw [if_neg hk, if_neg hk]

/-! ### The texts are always right -/

/-- Reading the string `p` gives the value of the environment, if there is one for parameter `k`. -/
def StrOk (env : Env) (m : ParamMem) (k p : Nat) : Prop :=
  p < m.heap.length ∧ ∀ text v, m.heap[p]? = some (some text) → envOf env k = some v → text = v

def EnvMem (env : Env) (m : ParamMem) : Prop := ∀ k p, m.table k = some p → StrOk env m k p

def EnvPc (env : Env) (m : ParamMem) : ParamPc → Prop
  | .again k => k < 3 ∧ (envOf env k ≠ none → m.table k ≠ none)
  | .freeOld k tmp => k < 3 ∧ envOf env k = some tmp
  | .storeNew k tmp => k < 3 ∧ envOf env k = some tmp
  | .use k ptr => k < 3 ∧ (∀ p, ptr = some p → StrOk env m k p) ∧ (envOf env k ≠ none → ptr ≠ none)
  | .setFree k tmp => k < 3 ∧ ∀ v, envOf env k = some v → tmp = some v
  | .setStore k tmp => k < 3 ∧ ∀ v, envOf env k = some v → tmp = some v
  | _ => True

def EnvThread (env : Env) (m : ParamMem) (t : ParamThread) : Prop :=
  EnvPc env m t.pc ∧ ∀ k r v, (k, r) ∈ t.got → k < 3 → envOf env k = some v → r = some v

/-- What every step leaves true for the others. -/
def ParamMono (env : Env) (m m' : ParamMem) : Prop :=
  (∀ k p, StrOk env m k p → StrOk env m' k p) ∧ ∀ k, envOf env k ≠ none → m.table k ≠ none → m'.table k ≠ none

theorem ParamMono.refl (env : Env) (m : ParamMem) : ParamMono env m m := ⟨fun _ _ h => h, fun _ _ h => h⟩

theorem EnvThread.mono {env : Env} {m m' : ParamMem} (hm : ParamMono env m m') {t : ParamThread} (h : EnvThread env m t) :
    EnvThread env m' t := by
  refine ⟨?_, h.2⟩
  have h1 := h.1
  cases hp : t.pc with
  | idle => trivial
  | again k => rw [hp] at h1; exact ⟨h1.1, fun he => hm.2 k he (h1.2 he)⟩
  | freeOld k tmp => rw [hp] at h1; exact h1
  | storeNew k tmp => rw [hp] at h1; exact h1
  | use k ptr => rw [hp] at h1; exact ⟨h1.1, fun p hpp => hm.1 k p (h1.2.1 p hpp), h1.2.2⟩
  | setFree k tmp => rw [hp] at h1; exact h1
  | setStore k tmp => rw [hp] at h1; exact h1
  | fault => trivial

theorem mono_free {env : Env} {m m' : ParamMem} {k : Nat} (h : freeAt m k = some m') : ParamMono env m m' ∧ (EnvMem env m → EnvMem env m') := by
  unfold freeAt at h
  split at h
  · cases h; exact ⟨ParamMono.refl env m, id⟩
  · rename_i ptr _
    split at h
    · have := Option.some.inj h
      subst this
      have hs : ∀ j p, StrOk env m j p → StrOk env { m with heap := m.heap.set ptr none } j p := by
        rintro j p ⟨a, b⟩
        refine ⟨by simpa using a, fun text v ht hv => b text v ?_ hv⟩
        rw [show ({ m with heap := m.heap.set ptr none } : ParamMem).heap = m.heap.set ptr none from rfl, List.getElem?_set] at ht
        split at ht
        · split at ht
          · cases ht
          · cases ht
        · exact ht
      exact ⟨⟨hs, fun _ _ h => h⟩, fun hm j p hj => hs j p (hm j p hj)⟩
    · cases h

theorem mono_storeAt {env : Env} {m : ParamMem} {k : Nat} {tmp : Option CStr} (ht : ∀ v, envOf env k = some v → tmp = some v) :
    ParamMono env m (storeAt m k tmp) ∧ (EnvMem env m → EnvMem env (storeAt m k tmp)) := by
  cases tmp with
  | none =>
    have hn : envOf env k = none := by
      cases h : envOf env k with
      | none => rfl
      | some v => cases ht v h
    refine ⟨⟨fun _ _ h => h, fun j he hj => ?_⟩, fun hm j p hj => ?_⟩
    · show (if j = k then none else m.table j) ≠ none
      by_cases hjk : j = k
      · rw [hjk] at he; exact (he hn).elim
      · rw [if_neg hjk]; exact hj
    · have hj' : (if j = k then none else m.table j) = some p := hj
      by_cases hjk : j = k
      · rw [if_pos hjk] at hj'; cases hj'
      · rw [if_neg hjk] at hj'; exact hm j p hj'
  | some t =>
    have hs : ∀ j p, StrOk env m j p → StrOk env (storeAt m k (some t)) j p := by
      rintro j p ⟨a, b⟩
      refine ⟨by simp only [storeAt, List.length_append, List.length_singleton]; omega, fun text v hh hv => b text v ?_ hv⟩
      rw [← hh]
      exact (List.getElem?_append_left a).symm
    refine ⟨⟨hs, fun j _ hj => ?_⟩, fun hm j p hj => ?_⟩
    · show (if j = k then some m.heap.length else m.table j) ≠ none
      split
      · exact fun h => by cases h
      · exact hj
    · have hj' : (if j = k then some m.heap.length else m.table j) = some p := hj
      by_cases hjk : j = k
      · rw [if_pos hjk] at hj'
        have := Option.some.inj hj'
        subst this
        subst hjk
        refine ⟨by simp [storeAt], fun text v hh hv => ?_⟩
        have hnew : (m.heap ++ [some t])[m.heap.length]? = some (some text) := hh
        rw [List.getElem?_append_right (Nat.le_refl _)] at hnew
        simp only [Nat.sub_self, List.getElem?_cons_zero, Option.some.injEq] at hnew
        have := Option.some.inj (ht v hv)
        rw [← hnew, this]
      · rw [if_neg hjk] at hj'; exact hs j p (hm j p hj')

theorem env_step {env : Env} {m : ParamMem} (hm : EnvMem env m) {t : ParamThread} (ht : EnvThread env m t) :
    ParamMono env m (paramStep env m t).1 ∧ EnvMem env (paramStep env m t).1 ∧
    EnvThread env (paramStep env m t).1 (paramStep env m t).2 := by
  obtain ⟨h1, h3⟩ := ht
  have hrefl := ParamMono.refl env m
  have add : ∀ (k : Nat) (r : Option CStr), (k < 3 → ∀ v, envOf env k = some v → r = some v) →
      ∀ k' r' v, (k', r') ∈ t.got ++ [(k, r)] → k' < 3 → envOf env k' = some v → r' = some v := by
    intro k r hr k' r' v hx hk hv
    rcases List.mem_append.mp hx with hx | hx
    · exact h3 k' r' v hx hk hv
    · rw [List.mem_singleton] at hx; cases hx; exact hr hk v hv
  unfold paramStep
  cases hp : t.pc with
  | idle =>
    simp only
    cases htd : t.todo with
    | nil => exact ⟨hrefl, hm, by rw [hp]; trivial, h3⟩
    | cons c rest =>
      cases c with
      | lookup k =>
        simp only
        by_cases hk : k ≥ 3
        · rw [if_pos hk]
          exact ⟨hrefl, hm, trivial, add k none (fun h => absurd h (by omega))⟩
        · rw [if_neg hk]
          cases htk : m.table k with
          | some p =>
            simp only [Option.isSome_some, if_true]
            exact ⟨hrefl, hm, ⟨by omega, fun _ => by rw [htk]; exact fun h => by cases h⟩, h3⟩
          | none =>
            simp only [Option.isSome_none, Bool.false_eq_true, if_false]
            cases he : envOf env k with
            | some tmp => exact ⟨hrefl, hm, ⟨by omega, he⟩, h3⟩
            | none => exact ⟨hrefl, hm, trivial, add k none (fun _ v hv => by rw [he] at hv; cases hv)⟩
      | set k v =>
        simp only
        by_cases hk : k ≥ 3
        · rw [if_pos hk]; exact ⟨hrefl, hm, trivial, h3⟩
        · rw [if_neg hk]
          exact ⟨hrefl, hm, ⟨by omega, fun w hw => by rw [hw]; rfl⟩, h3⟩
  | again k =>
    rw [hp] at h1
    exact ⟨hrefl, hm, ⟨h1.1, fun p hpp => hm k p hpp, h1.2⟩, h3⟩
  | freeOld k tmp =>
    rw [hp] at h1
    simp only
    cases hf : freeAt m k with
    | none => exact ⟨hrefl, hm, trivial, h3⟩
    | some m' => exact ⟨(mono_free hf).1, (mono_free hf).2 hm, h1, h3⟩
  | storeNew k tmp =>
    rw [hp] at h1
    have := mono_storeAt (m := m) (tmp := some tmp) (fun v hv => by rw [h1.2] at hv; exact hv)
    refine ⟨this.1, this.2 hm, ⟨h1.1, fun _ => ?_⟩, h3⟩
    simp [storeAt]
  | use k ptr =>
    rw [hp] at h1
    cases ptr with
    | none => exact ⟨hrefl, hm, trivial, add k none (fun _ v hv => (h1.2.2 (by rw [hv]; exact fun h => by cases h) rfl).elim)⟩
    | some p =>
      simp only
      cases hh : m.heap[p]? with
      | none => exact ⟨hrefl, hm, trivial, h3⟩
      | some x =>
        cases x with
        | none => exact ⟨hrefl, hm, trivial, h3⟩
        | some text => exact ⟨hrefl, hm, trivial, add k (some text) (fun _ v hv => by rw [(h1.2.1 p rfl).2 text v hh hv])⟩
  | setFree k tmp =>
    rw [hp] at h1
    simp only
    cases hf : freeAt m k with
    | none => exact ⟨hrefl, hm, trivial, h3⟩
    | some m' => exact ⟨(mono_free hf).1, (mono_free hf).2 hm, h1, h3⟩
  | setStore k tmp =>
    rw [hp] at h1
    have := mono_storeAt (m := m) h1.2
    exact ⟨this.1, this.2 hm, trivial, h3⟩
  | fault => exact ⟨hrefl, hm, by rw [hp]; trivial, h3⟩

theorem env_run {env : Env} (sched : List Nat) {s : ParamState} (hm : EnvMem env s.mem) (ht : ∀ t ∈ s.threads, EnvThread env s.mem t) :
    ∀ t ∈ (s.run env sched).threads, EnvThread env (s.run env sched).mem t := by
  induction sched generalizing s with
  | nil => exact ht
  | cons i rest ih =>
    have key : EnvMem env (s.step env i).mem ∧ ∀ t ∈ (s.step env i).threads, EnvThread env (s.step env i).mem t := by
      unfold ParamState.step
      cases hi : s.threads[i]? with
      | none => exact ⟨hm, ht⟩
      | some t =>
        obtain ⟨a, b, c⟩ := env_step hm (ht t (List.mem_of_getElem? hi))
        refine ⟨b, fun t' ht' => ?_⟩
        rcases List.mem_or_eq_of_mem_set ht' with h | h
        · exact (ht t' h).mono a
        · rw [h]; exact c
    exact ih (s := s.step env i) key.1 key.2

/-- **C75**: from the start of the program, with any number of threads that look up and set parameters in any order: a lookup that
delivers a result delivers the value of the environment, if there is one. -/
theorem C75_environment_wins (env : Env) (calls : List (List ParamCall)) (schedule : List Nat) (t : ParamThread)
    (ht : t ∈ ((paramThreads coldMem calls).run env schedule).threads) (k : Nat) (hk : k < 3) (r : Option CStr) (v : CStr)
    (hr : (k, r) ∈ t.got) (hv : envOf env k = some v) : r = some v := by
  have := env_run (env := env) schedule (s := paramThreads coldMem calls) (fun k p h => by cases h) (fun t ht => by
    obtain ⟨c, _, rfl⟩ := List.mem_map.mp ht
    exact ⟨trivial, fun k r v h => by cases h⟩)
  exact (this t ht).2 k r v hr hk hv

/-! ### What goes wrong -/

/-- An environment with `CRYPT_PARAMS=tc26` only. -/
def cryptEnv : Env := fun s => if s = "CRYPT_PARAMS" then some [0x74, 0x63, 0x32, 0x36] else none

/-- **C75** (false of the code): two threads make their first lookup; both find no string; the first stores its copy and gets the
pointer; the second frees that copy (line 53); the first reads freed memory. -/
theorem C75_first_lookup_false : ∃ schedule, ∃ t ∈ ((paramThreads coldMem [[.lookup 0], [.lookup 0]]).run cryptEnv schedule).threads,
    t.pc = .fault := by
  refine ⟨[0, 1, 0, 0, 0, 1, 0], ?_⟩
  decide +kernel

/-- **C75** (false of the code): three threads; the third frees the string a second time. -/
theorem C75_double_free_false : ∃ schedule, ∃ t ∈ ((paramThreads coldMem [[.lookup 0], [.lookup 0], [.lookup 0]]).run cryptEnv schedule).threads,
    t.pc = .fault ∧ t.got = [] ∧ t.todo.length = 0 := by
  refine ⟨[0, 1, 2, 0, 0, 1, 2], ?_⟩
  decide +kernel

/-- **C75** (false of the code): a thread sets the parameter between the other's lookup and its use of the string. -/
theorem C75_set_false : ∃ schedule, ∃ t ∈ ((paramThreads (startedMem cryptEnv) [[.lookup 0], [.set 0 (some [0x41])]]).run cryptEnv
    schedule).threads, t.pc = .fault := by
  refine ⟨[0, 0, 1, 1, 0], ?_⟩
  decide +kernel

-- the hypotheses are met: three threads after startup, overlapping lookups
example : ((paramThreads (startedMem cryptEnv) [[.lookup 0, .lookup 1], [.lookup 0], [.lookup 7]]).run cryptEnv
    [0, 1, 2, 0, 1, 1, 0, 0]).threads.map (·.got) =
      [[(0, some [0x74, 0x63, 0x32, 0x36]), (1, none)], [(0, some [0x74, 0x63, 0x32, 0x36])], [(7, none)]] := by decide +kernel
example : envOf cryptEnv 0 = some [0x74, 0x63, 0x32, 0x36] ∧ envOf cryptEnv 2 = none := by decide +kernel

end Gost
