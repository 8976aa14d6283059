import Verif.Model.ProvLife

/-!
# C76, C77: the provider's dispatch tables and the lives of its instances
-/
namespace Gost.Life

/-! ## Counting objects -/

/-- 1 for the object itself. -/
def c1 (p q : Ptr) : Nat := if p = q then 1 else 0

/-- How often a list of pointers has an object. -/
def cn (l : List (Option Ptr)) (q : Ptr) : Nat := l.count (some q)

theorem cn_nil (q : Ptr) : cn [] q = 0 := rfl

theorem cn_cons_some (p : Ptr) (l : List (Option Ptr)) (q : Ptr) : cn (some p :: l) q = cn l q + c1 p q := by
  simp only [cn, List.count_cons, c1, Option.some_beq_some, beq_iff_eq]

theorem cn_cons_none (l : List (Option Ptr)) (q : Ptr) : cn (none :: l) q = cn l q := by
  simp only [cn, List.count_cons]
  rfl

/-- The memory holds exactly `f` and nothing has gone wrong. -/
def At (m : Mem) (f : Ptr → Nat) : Prop := m.fault = false ∧ ∀ q, m.live.count q = f q

theorem At.congr {m : Mem} {f g : Ptr → Nat} (h : At m f) (hg : ∀ q, f q = g q) : At m g :=
  ⟨h.1, fun q => (h.2 q).trans (hg q)⟩

theorem At.alloc {ok : Nat → Bool} {m m1 : Mem} {o : Option Ptr} {f : Ptr → Nat} (h : At m f) (ha : alloc ok m = (o, m1)) :
    At m1 (fun q => f q + cn [o] q) := by
  rw [Life.alloc] at ha
  by_cases hk : ok m.calls
  · rw [if_pos hk] at ha
    cases ha
    refine ⟨h.1, fun q => ?_⟩
    show (m.next :: m.live).count q = f q + cn [some m.next] q
    rw [List.count_cons, h.2 q, cn_cons_some, cn_nil]
    simp [c1]
  · rw [if_neg hk] at ha
    cases ha
    exact ⟨h.1, fun q => by dsimp only; rw [cn_cons_none, cn_nil]; exact h.2 q⟩

theorem At.attempt {ok : Nat → Bool} {m m1 : Mem} {b : Bool} {f : Ptr → Nat} (h : At m f) (ha : attempt ok m = (b, m1)) :
    At m1 f := by
  cases ha
  exact h

theorem At.release {m : Mem} {p : Ptr} {f : Ptr → Nat} (h : At m (fun q => f q + c1 p q)) : At (release m p) f := by
  have hp : p ∈ m.live := by
    have := h.2 p
    simp only [c1, if_true] at this
    exact List.count_pos_iff.1 (by omega)
  rw [Life.release, if_pos hp]
  refine ⟨h.1, fun q => ?_⟩
  show (m.live.erase p).count q = f q
  rw [List.count_erase, h.2 q]
  by_cases hq : p = q
  · subst hq; simp [c1]
  · simp [c1, hq]

theorem At.releaseOpt {m : Mem} {o : Option Ptr} {f : Ptr → Nat} (h : At m (fun q => f q + cn [o] q)) : At (releaseOpt m o) f := by
  cases o with
  | none => exact h.congr fun q => by rw [cn_cons_none, cn_nil, Nat.add_zero]
  | some p => exact At.release (h.congr fun q => by rw [cn_cons_some, cn_nil]; omega)

theorem At.releaseAll {l : List (Option Ptr)} : ∀ {m : Mem} {f : Ptr → Nat}, At m (fun q => f q + cn l q) → At (releaseAll m l) f := by
  induction l with
  | nil => exact fun h => h.congr fun q => by rw [cn_nil, Nat.add_zero]
  | cons o r ih =>
    intro m f h
    refine ih (At.releaseOpt (h.congr fun q => ?_))
    cases o with
    | none => rw [cn_cons_none, cn_cons_none, cn_nil, Nat.add_zero]
    | some p => rw [cn_cons_some, cn_cons_some, cn_nil]; omega

theorem At.touch {m : Mem} {p : Ptr} {f : Ptr → Nat} (h : At m f) (hp : 0 < f p) : touch m p = m := by
  rw [Life.touch, if_pos]
  have := h.2 p
  exact List.count_pos_iff.1 (by omega)

/-! ## Caches -/

theorem cn_set {l : List (Option Ptr)} {i : Nat} (hi : i < l.length) (o : Option Ptr) (q : Ptr) :
    cn (l.set i o) q + cn [l.getD i none] q = cn l q + cn [o] q := by
  induction l generalizing i with
  | nil => exact absurd hi (Nat.not_lt_zero _)
  | cons a r ih =>
    have hc : ∀ (x : Option Ptr) (t : List (Option Ptr)), cn (x :: t) q = cn t q + cn [x] q := by
      intro x t
      cases x with
      | none => rw [cn_cons_none, cn_cons_none, cn_nil, Nat.add_zero]
      | some y => rw [cn_cons_some, cn_cons_some, cn_nil]; omega
    cases i with
    | zero =>
      show cn (o :: r) q + cn [a] q = _
      rw [hc o r, hc a r]; omega
    | succ j =>
      have hj : j < r.length := Nat.lt_of_succ_lt_succ hi
      have h1 := ih hj
      show cn (a :: r.set j o) q + cn [r.getD j none] q = _
      rw [hc a (r.set j o), hc a r]; omega

theorem getD_out {l : List (Option Ptr)} {i : Nat} (hi : ¬ i < l.length) : l.getD i none = none := by
  rw [List.getD_eq_getElem?_getD, List.getElem?_eq_none (Nat.le_of_not_lt hi)]
  rfl

theorem At.deinit {is : List Nat} : ∀ {m : Mem} {l : List (Option Ptr)} {f : Ptr → Nat}, At m (fun q => f q + cn l q) →
    At (deinitMeths m l is).1 (fun q => f q + cn (deinitMeths m l is).2 q) := by
  induction is with
  | nil => exact fun h => h
  | cons i r ih =>
    intro m l f h
    refine ih (At.releaseOpt (h.congr fun q => ?_))
    by_cases hi : i < l.length
    · have := cn_set hi none q
      rw [cn_cons_none, cn_nil] at this
      omega
    · rw [getD_out hi, List.set_eq_of_length_le (Nat.le_of_not_lt hi), cn_cons_none, cn_nil, Nat.add_zero]

theorem deinit_length {is : List Nat} : ∀ {m : Mem} {l : List (Option Ptr)}, (deinitMeths m l is).2.length = l.length := by
  induction is with
  | nil => exact rfl
  | cons i r ih => intro m l; exact ih.trans (List.length_set ..)

/-- Nothing in a cache. -/
def Empty (l : List (Option Ptr)) : Prop := ∀ o ∈ l, o = none

theorem Empty.cn {l : List (Option Ptr)} (h : Empty l) (q : Ptr) : cn l q = 0 := by
  unfold Life.cn
  rw [List.count_eq_zero]
  intro hm
  exact absurd (h _ hm) (by simp)

theorem deinit_getElem {is : List Nat} : ∀ {m : Mem} {l : List (Option Ptr)} {j : Nat} {o : Option Ptr},
    (deinitMeths m l is).2[j]? = some o → o = none ∨ (j ∉ is ∧ l[j]? = some o) := by
  induction is with
  | nil => exact fun h => Or.inr ⟨List.not_mem_nil, h⟩
  | cons i r ih =>
    intro m l j o h
    rcases ih h with h | ⟨hj, h⟩
    · exact Or.inl h
    · rename_i hfirst
      clear hfirst
      rw [List.getElem?_set] at h
      by_cases hij : i = j
      · rw [if_pos hij] at h
        subst hij
        split at h
        · exact Or.inl (Option.some.inj h).symm
        · cases h
      · rw [if_neg hij] at h
        refine Or.inr ⟨fun hm => ?_, h⟩
        rcases List.mem_cons.1 hm with rfl | hm
        · exact hij rfl
        · exact hj hm

theorem deinit_all {m : Mem} {l : List (Option Ptr)} : Empty (deinitMeths m l (List.range l.length)).2 := by
  intro o ho
  obtain ⟨j, hj⟩ := List.mem_iff_getElem?.1 ho
  rcases deinit_getElem hj with h | ⟨hn, h⟩
  · exact h
  · have : j < l.length := (List.getElem?_eq_some_iff.1 h).1
    exact absurd (List.mem_range.2 this) hn

theorem initMeth_at {ok : Nat → Bool} {m : Mem} {l : List (Option Ptr)} {i : Nat} (hi : i < l.length) {f : Ptr → Nat}
    (h : At m (fun q => f q + cn l q)) :
    At (initMeth ok m l i).2.1 (fun q => f q + cn (initMeth ok m l i).2.2 q) ∧ (initMeth ok m l i).2.2.length = l.length ∧
      (∀ p, (initMeth ok m l i).1 = some p → some p ∈ (initMeth ok m l i).2.2) ∧
      (∀ o ∈ l, o ≠ none → o ∈ (initMeth ok m l i).2.2) := by
  unfold initMeth
  cases hg : l.getD i none with
  | some p =>
    refine ⟨h, rfl, fun p' hp' => ?_, fun o ho _ => ho⟩
    cases hp'
    rw [List.getD_eq_getElem?_getD, List.getElem?_eq_getElem hi] at hg
    have : l[i] = some p := hg
    dsimp only
    rw [← this]
    exact List.getElem_mem hi
  | none =>
    dsimp only
    cases ha : alloc ok m with
    | mk o m1 =>
      refine ⟨?_, List.length_set .., fun p hp => ?_, fun o' ho' hne => ?_⟩
      · refine (h.alloc ha).congr fun q => ?_
        have := cn_set hi o q
        rw [hg, cn_cons_none, cn_nil] at this
        dsimp only
        omega
      · cases hp
        exact List.mem_set hi _
      · obtain ⟨j, hj⟩ := List.mem_iff_getElem?.1 ho'
        refine List.mem_iff_getElem?.2 ⟨j, ?_⟩
        rw [List.getElem?_set]
        by_cases hij : i = j
        · subst hij
          rw [List.getD_eq_getElem?_getD, hj] at hg
          exact absurd hg hne
        · rw [if_neg hij]; exact hj

/-! ## The engine -/

theorem createNIDs_at {ok : Nat → Bool} : ∀ {l : List (Option Ptr)} {m m1 : Mem} {l1 : List (Option Ptr)} {b : Bool} {f : Ptr → Nat},
    At m f → createNIDs ok m l = (m1, l1, b) →
    (b = true → At m1 (fun q => f q + cn l1 q)) ∧ (b = false → ∃ lk : List Ptr, lk.length < l.length ∧ At m1 (fun q => f q + lk.count q)) := by
  intro l
  induction l with
  | nil =>
    intro m m1 l1 b f h hc
    cases hc
    exact ⟨fun _ => h.congr fun q => by rw [cn_nil, Nat.add_zero], fun hb => Bool.noConfusion hb⟩
  | cons x r ih =>
    intro m m1 l1 b f h hc
    rw [createNIDs] at hc
    cases ha : alloc ok m with
    | mk o m2 =>
    rw [ha] at hc
    have h2 := h.alloc ha
    cases o with
    | none =>
      cases hc
      refine ⟨fun hb => Bool.noConfusion hb, fun _ => ⟨[], Nat.succ_pos _, h2.congr fun q => ?_⟩⟩
      rw [cn_cons_none, cn_nil]; rfl
    | some p =>
      simp only at hc
      cases hb : attempt ok m2 with
      | mk b' m3 =>
      rw [hb] at hc
      have h3 := h2.attempt hb
      cases b' with
      | false =>
        cases hc
        refine ⟨fun hb => Bool.noConfusion hb, fun _ => ⟨[], Nat.succ_pos _, ?_⟩⟩
        refine At.release (h3.congr fun q => ?_)
        rw [cn_cons_some, cn_nil]; simp
      | true =>
        simp only at hc
        cases hr : createNIDs ok m3 r with
        | mk m4 rest =>
        obtain ⟨l4, b4⟩ := rest
        rw [hr] at hc
        cases hc
        obtain ⟨i1, i2⟩ := ih h3 hr
        refine ⟨fun hb => ?_, fun hb => ?_⟩
        · refine (i1 hb).congr fun q => ?_
          rw [cn_cons_some, cn_cons_some, cn_nil]; dsimp only; omega
        · obtain ⟨lk, hl, hlk⟩ := i2 hb
          refine ⟨p :: lk, Nat.succ_lt_succ hl, hlk.congr fun q => ?_⟩
          rw [cn_cons_some, cn_nil, List.count_cons]
          simp only [c1, beq_iff_eq]
          omega

theorem createNIDs_length {ok : Nat → Bool} : ∀ {l : List (Option Ptr)} {m : Mem}, (createNIDs ok m l).2.1.length = l.length := by
  intro l
  induction l with
  | nil => exact rfl
  | cons x r ih =>
    intro m
    rw [createNIDs]
    cases alloc ok m with
    | mk o m2 =>
    cases o with
    | none => rfl
    | some p =>
      simp only
      cases attempt ok m2 with
      | mk b' m3 =>
      cases b' with
      | false => rfl
      | true => exact congrArg (· + 1) ih

/-- How often the method variables have an object. -/
def cm (l : List (Option Ptr × Option Ptr)) (q : Ptr) : Nat := cn (l.map (·.1)) q + cn (l.map (·.2)) q

theorem cm_cons (s : Option Ptr × Option Ptr) (l : List (Option Ptr × Option Ptr)) (q : Ptr) :
    cm (s :: l) q = cm l q + cn [s.1] q + cn [s.2] q := by
  have hc : ∀ (x : Option Ptr) (t : List (Option Ptr)), cn (x :: t) q = cn t q + cn [x] q := by
    intro x t
    cases x with
    | none => rw [cn_cons_none, cn_cons_none, cn_nil, Nat.add_zero]
    | some y => rw [cn_cons_some, cn_cons_some, cn_nil]; omega
  unfold cm
  rw [List.map_cons, List.map_cons, hc s.1, hc s.2]; omega

/-- The methods a registration gives up when it stores new ones. -/
theorem registerMeths_at {ok : Nat → Bool} : ∀ {l : List (Bool × Option Ptr × Option Ptr)} {m : Mem} {f : Ptr → Nat},
    At m (fun q => f q + cm (l.map (·.2)) q) →
    ∃ lk : List Ptr, At (registerMeths ok m l).1 (fun q => f q + cm (registerMeths ok m l).2.1 q + lk.count q) ∧
      ((∀ x ∈ l, x.2 = (none, none)) → lk = []) := by
  intro l
  have optCount : ∀ (o : Option Ptr) (q : Ptr), o.toList.count q = cn [o] q := by
    intro o q
    cases o with
    | none => rfl
    | some p =>
      rw [cn_cons_some, cn_nil]
      simp [c1, List.count_cons]
  induction l with
  | nil => exact fun h => ⟨[], h, fun _ => rfl⟩
  | cons x r ih =>
    intro m f h
    obtain ⟨sk, a, p⟩ := x
    cases sk with
    | true =>
      rw [registerMeths]
      obtain ⟨lk, hlk, he⟩ := ih (m := m) (f := fun q => f q + cn [a] q + cn [p] q) (h.congr fun q => by
        rw [List.map_cons, cm_cons]; dsimp only; omega)
      refine ⟨lk, hlk.congr fun q => ?_, fun hx => he fun y hy => hx y (List.mem_cons_of_mem _ hy)⟩
      rw [cm_cons]; dsimp only; omega
    | false =>
      rw [registerMeths]
      cases ha : alloc ok m with
      | mk o m2 =>
      have h2 := h.alloc ha
      cases o with
      | none =>
        refine ⟨a.toList, h2.congr fun q => ?_, fun hx => ?_⟩
        · rw [List.map_cons, cm_cons, cm_cons, optCount]; dsimp only; omega
        · have := hx _ List.mem_cons_self
          cases this
          rfl
      | some a' =>
        simp only
        cases hb : alloc ok m2 with
        | mk o' m3 =>
        have h3 := h2.alloc hb
        have hempty : (∀ y ∈ (false, a, p) :: r, y.2 = (none, none)) → a.toList ++ p.toList = [] := fun hx => by
          have := hx _ List.mem_cons_self
          cases this
          rfl
        cases o' with
        | none =>
          refine ⟨a.toList ++ p.toList, h3.congr fun q => ?_, hempty⟩
          rw [List.map_cons, cm_cons, cm_cons, List.count_append, optCount, optCount]; dsimp only
          rw [cn_cons_none, cn_nil]; omega
        | some p' =>
          simp only
          obtain ⟨lk, hlk, he⟩ := ih (m := m3)
            (f := fun q => f q + cn [a] q + cn [p] q + cn [some a'] q + cn [some p'] q) (h3.congr fun q => by
              rw [List.map_cons, cm_cons]; dsimp only; omega)
          refine ⟨a.toList ++ p.toList ++ lk, hlk.congr fun q => ?_, fun hx => ?_⟩
          · rw [cm_cons, List.count_append, List.count_append, optCount, optCount]; dsimp only; omega
          · rw [hempty hx, he fun y hy => hx y (List.mem_cons_of_mem _ hy)]
            rfl

theorem registerMeths_length {ok : Nat → Bool} : ∀ {l : List (Bool × Option Ptr × Option Ptr)} {m : Mem},
    (registerMeths ok m l).2.1.length = l.length := by
  intro l
  induction l with
  | nil => exact rfl
  | cons x r ih =>
    intro m
    obtain ⟨sk, a, p⟩ := x
    cases sk with
    | true => rw [registerMeths]; exact congrArg (· + 1) ih
    | false =>
      rw [registerMeths]
      cases alloc ok m with
      | mk o m2 =>
      cases o with
      | none => simp
      | some a' =>
        simp only
        cases alloc ok m2 with
        | mk o' m3 =>
        cases o' with
        | none => simp
        | some p' => exact congrArg (· + 1) ih

/-- What the variables of the module keep apart from the engine's objects. -/
def varsAt (s : PState) (q : Ptr) : Nat := cm s.meths q + cn s.ciphers q + cn s.digests q

theorem zip_meths {s : PState} (hm : s.meths.length = 10) : (skipped.zip s.meths).map (·.2) = s.meths :=
  List.map_snd_zip (by rw [hm]; decide)

theorem zip_empty {s : PState} (hm : ∀ x ∈ s.meths, x = (none, none)) : ∀ x ∈ skipped.zip s.meths, x.2 = (none, none) :=
  fun x hx => hm _ (List.of_mem_zip (a := x.1) (b := x.2) hx).2

/-- `populate`: the variables afterwards are of objects allocated; what is given up is listed. -/
theorem populate_at {ok : Nat → Bool} {s s1 : PState} {bound b : Bool} {f : Ptr → Nat} (hm : s.meths.length = 10)
    (ha : s.asn1.length = 2) (h : At s.mem (fun q => f q + varsAt s q)) (hp : populate ok s = (s1, bound, b)) :
    (s1.err_handle = s.err_handle ∧ s1.ciphers = s.ciphers ∧ s1.digests = s.digests ∧ s1.insts = s.insts ∧ s1.ctxs = s.ctxs ∧
      s1.meths.length = 10 ∧ s1.asn1.length = 2) ∧
    (bound = true → ∃ lk : List Ptr, At s1.mem (fun q => f q + varsAt s1 q + cn s1.asn1 q + lk.count q) ∧
      ((∀ x ∈ s.meths, x = (none, none)) → lk = [])) ∧
    (bound = false → b = false ∧ s1.meths = s.meths ∧
      ∃ lk : List Ptr, lk.length ≤ 1 ∧ At s1.mem (fun q => f q + varsAt s1 q + lk.count q)) := by
  unfold populate at hp
  have hlen := createNIDs_length (ok := ok) (l := s.asn1) (m := s.mem)
  cases hc : createNIDs ok s.mem s.asn1 with
  | mk m1 rest =>
  obtain ⟨a, b1⟩ := rest
  rw [hc] at hp hlen
  dsimp only at hlen
  obtain ⟨c1', c2'⟩ := createNIDs_at h hc
  cases b1 with
  | false =>
    cases hp
    refine ⟨⟨rfl, rfl, rfl, rfl, rfl, hm, hlen.trans ha⟩, fun hb => Bool.noConfusion hb, fun _ => ⟨rfl, rfl, ?_⟩⟩
    obtain ⟨lk, hl, hlk⟩ := c2' rfl
    exact ⟨lk, by omega, hlk⟩
  | true =>
    simp only at hp
    have hz := zip_meths hm
    have hl2 := registerMeths_length (ok := ok) (l := skipped.zip s.meths) (m := m1)
    have hl3 : (skipped.zip s.meths).length = 10 := by
      have := congrArg List.length hz
      rw [List.length_map] at this
      omega
    obtain ⟨lk, hlk, he⟩ := registerMeths_at (ok := ok) (l := skipped.zip s.meths) (m := m1)
      (f := fun q => f q + cn s.ciphers q + cn s.digests q + cn a q) ((c1' rfl).congr fun q => by
        rw [hz]; unfold varsAt; omega)
    have hb : bound = true := by cases hp; rfl
    have hs : s1 = { s with
        mem := (registerMeths ok m1 (skipped.zip s.meths)).1
        asn1 := a
        meths := (registerMeths ok m1 (skipped.zip s.meths)).2.1 } := by
      cases hp; rfl
    subst hs
    refine ⟨⟨rfl, rfl, rfl, rfl, rfl, hl2.trans hl3, hlen.trans ha⟩, fun _ => ⟨lk, hlk.congr fun q => ?_, fun hx =>
      he (zip_empty hx)⟩, fun hf => absurd (hb.symm.trans hf) (by decide)⟩
    unfold varsAt
    dsimp only
    omega

theorem cm_none {α : Type} (l : List α) (q : Ptr) : cm (l.map fun _ => ((none : Option Ptr), (none : Option Ptr))) q = 0 := by
  induction l with
  | nil => rfl
  | cons x r ih =>
    rw [List.map_cons, cm_cons, ih, cn_cons_none, cn_nil]

/-- `ENGINE_free` on an ENGINE that was populated: everything the variables had is freed, and the ENGINE. -/
theorem engineFree_at {s : PState} {e : Ptr} {f : Ptr → Nat}
    (h : At s.mem (fun q => f q + c1 e q + varsAt s q + cn s.asn1 q)) :
    At (engineFree s e true).mem f ∧ Empty (engineFree s e true).ciphers ∧ Empty (engineFree s e true).digests ∧
      (∀ x ∈ (engineFree s e true).meths, x = (none, none)) ∧
      (engineFree s e true).ciphers.length = s.ciphers.length ∧ (engineFree s e true).digests.length = s.digests.length ∧
      (engineFree s e true).meths.length = s.meths.length ∧ (engineFree s e true).asn1 = s.asn1 ∧
      (engineFree s e true).insts = s.insts ∧ (engineFree s e true).ctxs = s.ctxs ∧
      (engineFree s e true).err_handle = s.err_handle := by
  unfold engineFree
  rw [if_pos rfl]
  unfold destroyEngine
  dsimp only
  have h1 : At (releaseAll (releaseAll s.mem (s.meths.map (·.2))) (s.meths.map (·.1)))
      (fun q => f q + c1 e q + cn s.asn1 q + cn s.ciphers q + cn s.digests q) := by
    refine At.releaseAll (At.releaseAll (h.congr fun q => ?_))
    unfold varsAt cm
    omega
  generalize releaseAll (releaseAll s.mem (s.meths.map (·.2))) (s.meths.map (·.1)) = m1 at h1
  have h2 := At.deinit (is := List.range s.digests.length) h1
  have e2 : Empty (deinitMeths m1 s.digests (List.range s.digests.length)).2 := deinit_all
  have l2 : (deinitMeths m1 s.digests (List.range s.digests.length)).2.length = s.digests.length := deinit_length
  generalize deinitMeths m1 s.digests (List.range s.digests.length) = d at h2 e2 l2
  have h3 := At.deinit (is := List.range s.ciphers.length) (m := d.1) (l := s.ciphers)
    (f := fun q => f q + c1 e q + cn s.asn1 q) (h2.congr fun q => by rw [e2.cn]; omega)
  have e3 : Empty (deinitMeths d.1 s.ciphers (List.range s.ciphers.length)).2 := deinit_all
  have l3 : (deinitMeths d.1 s.ciphers (List.range s.ciphers.length)).2.length = s.ciphers.length := deinit_length
  generalize deinitMeths d.1 s.ciphers (List.range s.ciphers.length) = c at h3 e3 l3
  refine ⟨At.release (At.releaseAll (h3.congr fun q => by rw [e3.cn]; omega)), e3, e2, ?_, l3, l2, ?_, rfl, rfl, rfl, rfl⟩
  · intro x hx
    obtain ⟨_, _, rfl⟩ := List.mem_map.1 hx
    rfl
  · exact List.length_map ..

/-! ## Contexts -/

/-- The objects of a context. -/
def cc (c : Ctx) (q : Ptr) : Nat := c1 c.self q + c1 c.cctx q + cn [c.data] q

/-- The method of a context is one of those in the caches. -/
def Cached (s : PState) (p : Ptr) : Prop := some p ∈ s.ciphers ∨ some p ∈ s.digests

theorem Cached.pos {s : PState} {p : Ptr} (h : Cached s p) : 0 < varsAt s p := by
  unfold varsAt cn
  rcases h with h | h
  · have := List.count_pos_iff.2 h; omega
  · have := List.count_pos_iff.2 h; omega

/-- What making contexts leaves alone. -/
structure Frame (s s' : PState) : Prop where
  err : s'.err_handle = s.err_handle
  meths : s'.meths = s.meths
  asn1 : s'.asn1 = s.asn1
  insts : s'.insts = s.insts
  ctxs : s'.ctxs = s.ctxs
  clen : s'.ciphers.length = s.ciphers.length
  dlen : s'.digests.length = s.digests.length
  cached : ∀ p, Cached s p → Cached s' p

theorem Frame.mem (s : PState) (m : Mem) : Frame s { s with mem := m } := ⟨rfl, rfl, rfl, rfl, rfl, rfl, rfl, fun _ h => h⟩

theorem Frame.trans {s s1 s2 : PState} (h : Frame s s1) (k : Frame s1 s2) : Frame s s2 :=
  ⟨k.err.trans h.err, k.meths.trans h.meths, k.asn1.trans h.asn1, k.insts.trans h.insts, k.ctxs.trans h.ctxs,
    k.clen.trans h.clen, k.dlen.trans h.dlen, fun p hp => k.cached p (h.cached p hp)⟩

theorem cipherRow_lt {row i : Nat} (h : GOST_prov_ciphers[row]? = some i) : i < 20 :=
  (by decide : ∀ x ∈ GOST_prov_ciphers, x < 20) i (List.mem_of_getElem? h)

theorem digestRow_lt {row i : Nat} (h : GOST_prov_digests[row]? = some i) : i < 8 :=
  (by decide : ∀ x ∈ GOST_prov_digests, x < 8) i (List.mem_of_getElem? h)

theorem macRow_lt {row i : Nat} (h : GOST_prov_macs[row]? = some i) : i < 8 :=
  (by decide : ∀ x ∈ GOST_prov_macs, x < 8) i (List.mem_of_getElem? h)

theorem kindMeth_at {ok : Nat → Bool} {s s1 : PState} {k : Kind} {o : Option Ptr} {f : Ptr → Nat} (hc : s.ciphers.length = 20)
    (hd : s.digests.length = 8) (h : At s.mem (fun q => f q + varsAt s q)) (hk : kindMeth ok s k = (o, s1)) :
    Frame s s1 ∧ At s1.mem (fun q => f q + varsAt s1 q) ∧ ∀ p, o = some p → Cached s1 p := by
  have ciph : ∀ i, i < 20 → (o, s1) = ((initMeth ok s.mem s.ciphers i).1,
        ({ s with mem := (initMeth ok s.mem s.ciphers i).2.1, ciphers := (initMeth ok s.mem s.ciphers i).2.2 } : PState)) →
      Frame s s1 ∧ At s1.mem (fun q => f q + varsAt s1 q) ∧ ∀ p, o = some p → Cached s1 p := by
    intro i hi he
    obtain ⟨a1, a2, a3, a4⟩ := initMeth_at (ok := ok) (m := s.mem) (l := s.ciphers) (i := i) (by omega)
      (f := fun q => f q + cm s.meths q + cn s.digests q) (h.congr fun q => by unfold varsAt; omega)
    cases he
    refine ⟨⟨rfl, rfl, rfl, rfl, rfl, a2, rfl, fun p hp => ?_⟩, a1.congr fun q => by unfold varsAt; dsimp only; omega,
      fun p hp => Or.inl (a3 p hp)⟩
    rcases hp with hp | hp
    · exact Or.inl (a4 _ hp (by simp))
    · exact Or.inr hp
  have dig : ∀ i, i < 8 → (o, s1) = ((initMeth ok s.mem s.digests i).1,
        ({ s with mem := (initMeth ok s.mem s.digests i).2.1, digests := (initMeth ok s.mem s.digests i).2.2 } : PState)) →
      Frame s s1 ∧ At s1.mem (fun q => f q + varsAt s1 q) ∧ ∀ p, o = some p → Cached s1 p := by
    intro i hi he
    obtain ⟨a1, a2, a3, a4⟩ := initMeth_at (ok := ok) (m := s.mem) (l := s.digests) (i := i) (by omega)
      (f := fun q => f q + cm s.meths q + cn s.ciphers q) (h.congr fun q => by unfold varsAt; omega)
    cases he
    refine ⟨⟨rfl, rfl, rfl, rfl, rfl, rfl, a2, fun p hp => ?_⟩, a1.congr fun q => by unfold varsAt; dsimp only; omega,
      fun p hp => Or.inr (a3 p hp)⟩
    rcases hp with hp | hp
    · exact Or.inl hp
    · exact Or.inr (a4 _ hp (by simp))
  have nothing : (o, s1) = (none, s) → Frame s s1 ∧ At s1.mem (fun q => f q + varsAt s1 q) ∧ ∀ p, o = some p → Cached s1 p := by
    intro he
    cases he
    exact ⟨Frame.mem s s.mem, h, fun p hp => by cases hp⟩
  cases k with
  | cipher row =>
    simp only [kindMeth] at hk
    cases hr : GOST_prov_ciphers[row]? with
    | none => rw [hr] at hk; exact nothing hk.symm
    | some i => rw [hr] at hk; exact ciph i (cipherRow_lt hr) hk.symm
  | digest row =>
    simp only [kindMeth] at hk
    cases hr : GOST_prov_digests[row]? with
    | none => rw [hr] at hk; exact nothing hk.symm
    | some i => rw [hr] at hk; exact dig i (digestRow_lt hr) hk.symm
  | mac row =>
    simp only [kindMeth] at hk
    cases hr : GOST_prov_macs[row]? with
    | none => rw [hr] at hk; exact nothing hk.symm
    | some i => rw [hr] at hk; exact dig i (macRow_lt hr) hk.symm

theorem freectx_at {m : Mem} {c : Ctx} {f : Ptr → Nat} (h : At m (fun q => f q + cc c q)) (hm : 0 < f c.meth) :
    At (freectx m c) f := by
  unfold freectx
  have ht : (if c.started then touch m c.meth else m) = m := by
    split
    · exact h.touch (by first | omega | (dsimp only; omega))
    · rfl
  dsimp only
  rw [ht]
  refine At.release (At.release (At.releaseOpt (h.congr fun q => ?_)))
  unfold cc
  omega

theorem startCtx_at {ok : Nat → Bool} {m : Mem} {c : Ctx} {f : Ptr → Nat} (h : At m (fun q => f q + cc c q))
    (ho : 0 < f c.owner.self) (he : 0 < f c.owner.e) (hm : 0 < f c.meth) :
    At (startCtx ok m c).1 (fun q => f q + cc (startCtx ok m c).2 q) ∧
      (startCtx ok m c).2.owner = c.owner ∧ (startCtx ok m c).2.meth = c.meth ∧
      (c.data = none → (startCtx ok m c).2.started = true) := by
  unfold startCtx
  have hs : 0 < cc c c.self := by unfold cc c1; simp; omega
  have hx : 0 < cc c c.cctx := by unfold cc c1; simp; omega
  have t1 : touch m c.self = m := h.touch (by first | omega | (dsimp only; omega))
  have t2 : touch m c.owner.self = m := h.touch (by first | omega | (dsimp only; omega))
  have t3 : touch m c.owner.e = m := h.touch (by first | omega | (dsimp only; omega))
  have t4 : touch m c.cctx = m := h.touch (by first | omega | (dsimp only; omega))
  have t5 : touch m c.meth = m := h.touch (by first | omega | (dsimp only; omega))
  dsimp only
  rw [t1, t2, t3, t4, t5]
  cases hd : c.data with
  | some d =>
    dsimp only
    have t6 : touch m d = m := h.touch (by
      unfold cc
      rw [hd, cn_cons_some]
      simp only [c1, if_true]
      omega)
    rw [t6]
    exact ⟨h, rfl, rfl, fun hn => by cases hn⟩
  | none =>
    dsimp only
    cases ha : alloc ok m with
    | mk o m1 =>
    refine ⟨(h.alloc ha).congr fun q => ?_, rfl, rfl, fun _ => rfl⟩
    unfold cc
    rw [hd, cn_cons_none, cn_nil]
    dsimp only
    omega

theorem newctx_at {ok : Nat → Bool} {s s1 : PState} {i : Inst} {k : Kind} {o : Option Ctx} {f : Ptr → Nat}
    (hc : s.ciphers.length = 20) (hd : s.digests.length = 8) (h : At s.mem (fun q => f q + varsAt s q)) (ho : 0 < f i.self)
    (he : 0 < f i.e) (hk : newctx ok s i k = (o, s1)) :
    Frame s s1 ∧ (o = none → At s1.mem (fun q => f q + varsAt s1 q)) ∧
      ∀ c, o = some c → At s1.mem (fun q => f q + varsAt s1 q + cc c q) ∧ c.owner = i ∧ Cached s1 c.meth ∧
        (c.started = false → c.data = none) := by
  unfold newctx at hk
  cases ha : alloc ok s.mem with
  | mk g m1 =>
  rw [ha] at hk
  have h1 := h.alloc ha
  cases g with
  | none =>
    cases hk
    refine ⟨Frame.mem s m1, fun _ => h1.congr fun q => ?_, fun c hx => by cases hx⟩
    rw [cn_cons_none, cn_nil]; rfl
  | some g =>
    simp only at hk
    cases hm : kindMeth ok { s with mem := m1 } k with
    | mk meth s2 =>
    rw [hm] at hk
    obtain ⟨fr, h2, hcache⟩ := kindMeth_at (s := { s with mem := m1 }) (f := fun q => f q + c1 g q) hc hd (h1.congr fun q => by
      rw [cn_cons_some, cn_nil]; unfold varsAt; dsimp only; omega) hm
    have fr' : Frame s s2 := (Frame.mem s m1).trans fr
    cases meth with
    | none =>
      simp only at hk
      cases hb : alloc ok s2.mem with
      | mk x m3 =>
      rw [hb] at hk
      cases hk
      refine ⟨fr'.trans (Frame.mem s2 _), fun _ => ?_, fun c hx => by cases hx⟩
      exact At.release (At.releaseOpt ((h2.alloc hb).congr fun q => by unfold varsAt; dsimp only; omega))
    | some meth =>
      simp only at hk
      cases hb : alloc ok s2.mem with
      | mk x m3 =>
      rw [hb] at hk
      have h3 := h2.alloc hb
      have hmeth : 0 < varsAt s2 meth := (hcache meth rfl).pos
      cases x with
      | none =>
        cases hk
        refine ⟨fr'.trans (Frame.mem s2 _), fun _ => ?_, fun c hx => by cases hx⟩
        exact At.release (h3.congr fun q => by rw [cn_cons_none, cn_nil]; unfold varsAt; dsimp only; omega)
      | some x =>
        simp only at hk
        have h4 : At m3 (fun q => f q + varsAt s2 q + cc ⟨i, k, g, meth, x, none, false⟩ q) := h3.congr fun q => by
          unfold cc
          rw [cn_cons_some, cn_nil, cn_cons_none, cn_nil]; dsimp only; omega
        cases hmac : k.isMac with
        | false =>
          rw [hmac] at hk
          cases hk
          exact ⟨fr'.trans (Frame.mem s2 _), (fun hx => by cases hx), fun c hx => by cases hx; exact ⟨h4, rfl, hcache meth rfl, fun _ => rfl⟩⟩
        | true =>
          rw [hmac, if_pos rfl] at hk
          obtain ⟨h5, w1, w2, w3⟩ := startCtx_at (ok := ok) h4 (by dsimp only; omega) (by dsimp only; omega) (by dsimp only; omega)
          generalize startCtx ok m3 ⟨i, k, g, meth, x, none, false⟩ = r at h5 w1 w2 w3 hk
          dsimp only at w1 w2 w3 hk
          cases hdat : r.2.data.isSome with
          | true =>
            rw [hdat, if_pos rfl] at hk
            cases hk
            refine ⟨fr'.trans (Frame.mem s2 _), (fun hx => by cases hx), fun c hx => ?_⟩
            cases hx
            exact ⟨h5, w1, w2 ▸ hcache meth rfl, fun hf => absurd ((w3 rfl).symm.trans hf) (by decide)⟩
          | false =>
            rw [hdat, if_neg (by decide)] at hk
            cases hk
            refine ⟨fr'.trans (Frame.mem s2 _), fun _ => ?_, fun c hx => by cases hx⟩
            exact freectx_at (f := fun q => f q + varsAt s2 q) h5 (by rw [w2]; show 0 < f meth + varsAt s2 meth; omega)

theorem copyCtx_at {ok : Nat → Bool} {m : Mem} {d c : Ctx} {f : Ptr → Nat} (h : At m (fun q => f q + cc c q + cc d q))
    (hc : 0 < f c.meth) (hd : 0 < f d.meth) (hdata : d.started = false → d.data = none) :
    At (copyCtx ok m d c).1 (fun q => f q + cc c q + cc (copyCtx ok m d c).2 q) ∧ (copyCtx ok m d c).2.owner = d.owner ∧
      ((copyCtx ok m d c).2.meth = d.meth ∨ (copyCtx ok m d c).2.meth = c.meth) := by
  unfold copyCtx
  have hx : 0 < cc c c.cctx := by unfold cc c1; simp; omega
  have t1 : touch m c.cctx = m := h.touch (by first | omega | (dsimp only; omega))
  have t2 : touch m c.meth = m := h.touch (by first | omega | (dsimp only; omega))
  have t3 : touch m d.meth = m := h.touch (by first | omega | (dsimp only; omega))
  cases hst : c.started with
  | false =>
    rw [if_neg (by decide), t1]
    exact ⟨h, rfl, Or.inl rfl⟩
  | true =>
    rw [if_pos rfl]
    dsimp only
    rw [t1, t2, t3]
    have h1 : At (if d.started then releaseOpt m d.data else m) (fun q => f q + cc c q + c1 d.self q + c1 d.cctx q) := by
      cases hds : d.started with
      | true =>
        rw [if_pos rfl]
        exact At.releaseOpt (h.congr fun q => by unfold cc; omega)
      | false =>
        rw [if_neg (by decide)]
        exact h.congr fun q => by
          unfold cc
          rw [hdata hds, cn_cons_none, cn_nil]; omega
    generalize (if d.started then releaseOpt m d.data else m) = m1 at h1
    cases hcd : c.data with
    | none =>
      dsimp only
      refine ⟨h1.congr fun q => ?_, by first | rfl | trivial, Or.inr rfl⟩
      unfold cc
      rw [cn_cons_none, cn_nil]; dsimp only; omega
    | some x =>
      dsimp only
      have t4 : touch m1 x = m1 := h1.touch (by
        unfold cc
        rw [hcd, cn_cons_some]
        simp only [c1, if_true]
        omega)
      rw [t4]
      cases ha : alloc ok m1 with
      | mk o m2 =>
      refine ⟨(h1.alloc ha).congr fun q => ?_, rfl, Or.inr rfl⟩
      unfold cc
      dsimp only
      omega

/-! ## The invariant -/

/-- The sum of `f` over a list. -/
def tot {α : Type} (f : α → Nat) : List α → Nat
  | [] => 0
  | x :: r => tot f r + f x

theorem tot_erase {α : Type} (f : α → Nat) : ∀ {l : List α} {n : Nat} {x : α}, l[n]? = some x → tot f l = tot f (l.eraseIdx n) + f x := by
  intro l
  induction l with
  | nil => intro n x h; simp at h
  | cons a r ih =>
    intro n x h
    cases n with
    | zero => simp at h; subst h; rfl
    | succ n =>
      have h2 : r[n]? = some x := by simpa using h
      show tot f r + f a = tot f (r.eraseIdx n) + f a + f x
      rw [ih h2]; omega

theorem tot_set {α : Type} (f : α → Nat) : ∀ {l : List α} {n : Nat} {x : α} (y : α), l[n]? = some x →
    tot f (l.set n y) = tot f (l.eraseIdx n) + f y := by
  intro l
  induction l with
  | nil => intro n x y h; simp at h
  | cons a r ih =>
    intro n x y h
    cases n with
    | zero => rfl
    | succ n =>
      have h2 : r[n]? = some x := by simpa using h
      show tot f (r.set n y) + f a = tot f (r.eraseIdx n) + f a + f y
      rw [ih y h2]; omega

theorem tot_mem {α : Type} (f : α → Nat) {l : List α} {x : α} (h : x ∈ l) : f x ≤ tot f l := by
  induction l with
  | nil => cases h
  | cons a r ih =>
    show f x ≤ tot f r + f a
    rcases List.mem_cons.1 h with rfl | h
    · omega
    · have := ih h; omega

/-- The objects of an instance. -/
def ci (i : Inst) (q : Ptr) : Nat := c1 i.self q + c1 i.proverr q + c1 i.libctx q + c1 i.e q

/-- What the state accounts for: the OIDs while an instance is loaded, the variables, the instances and the contexts. -/
def owned (s : PState) (q : Ptr) : Nat :=
  (if s.insts = [] then 0 else cn s.asn1 q) + varsAt s q + tot (ci · q) s.insts + tot (cc · q) s.ctxs

/-- The invariant, with the objects given up. -/
structure Inv (s : PState) (lk : List Ptr) : Prop where
  bal : At s.mem (fun q => owned s q + lk.count q)
  mlen : s.meths.length = 10
  alen : s.asn1.length = 2
  clen : s.ciphers.length = 20
  dlen : s.digests.length = 8
  idle : s.insts = [] → (∀ x ∈ s.meths, x = (none, none)) ∧ Empty s.ciphers ∧ Empty s.digests
  err : s.insts ≠ [] → ∃ i ∈ s.insts, s.err_handle = some i.proverr
  own : ∀ c ∈ s.ctxs, c.owner ∈ s.insts
  meth : ∀ c ∈ s.ctxs, Cached s c.meth

theorem inv_init : Inv pInit [] where
  bal := ⟨rfl, fun q => by
    have hm : cm pInit.meths q = 0 := cm_none (List.replicate 10 ()) q
    have hc : cn pInit.ciphers q = 0 := Empty.cn (fun o ho => List.eq_of_mem_replicate ho) q
    have hd : cn pInit.digests q = 0 := Empty.cn (fun o ho => List.eq_of_mem_replicate ho) q
    show 0 = owned pInit q + 0
    unfold owned varsAt
    rw [hm, hc, hd]
    rfl⟩
  mlen := rfl
  alen := rfl
  clen := rfl
  dlen := rfl
  idle := fun _ => ⟨fun _ hx => List.eq_of_mem_replicate hx, fun _ ho => List.eq_of_mem_replicate ho,
    fun _ ho => List.eq_of_mem_replicate ho⟩
  err := fun h => absurd rfl h
  own := fun _ h => by cases h
  meth := fun _ h => by cases h

theorem Inv.ctxs_nil {s : PState} {lk : List Ptr} (h : Inv s lk) (hi : s.insts = []) : s.ctxs = [] := by
  cases hc : s.ctxs with
  | nil => rfl
  | cons c r =>
    have := h.own c (by rw [hc]; exact List.mem_cons_self)
    rw [hi] at this
    cases this

/-- Keeping the variables, with other memory and other contexts. -/
theorem Inv.frame {s s' : PState} {lk : List Ptr} (h : Inv s lk) (fr : Frame s s') (hne : s.insts ≠ [])
    (hb : At s'.mem (fun q => owned s' q + lk.count q)) : Inv s' lk where
  bal := hb
  mlen := by rw [fr.meths]; exact h.mlen
  alen := by rw [fr.asn1]; exact h.alen
  clen := fr.clen.trans h.clen
  dlen := fr.dlen.trans h.dlen
  idle := fun hi => absurd (fr.insts ▸ hi) hne
  err := fun _ => by
    rw [fr.insts, fr.err]
    exact h.err hne
  own := fun c hc => by
    rw [fr.insts]
    rw [fr.ctxs] at hc
    exact h.own c hc
  meth := fun c hc => by
    rw [fr.ctxs] at hc
    exact fr.cached _ (h.meth c hc)

/-- Changing the contexts. -/
theorem Inv.withCtxs {s : PState} {lk : List Ptr} (h : Inv s lk) (hne : s.insts ≠ []) (m : Mem) (cs : List Ctx)
    (hb : At m (fun q => owned { s with mem := m, ctxs := cs } q + lk.count q))
    (ho : ∀ c ∈ cs, c.owner ∈ s.insts) (hm : ∀ c ∈ cs, Cached s c.meth) : Inv { s with mem := m, ctxs := cs } lk where
  bal := hb
  mlen := h.mlen
  alen := h.alen
  clen := h.clen
  dlen := h.dlen
  idle := fun hi => absurd hi hne
  err := h.err
  own := ho
  meth := hm

/-! ## Loading and unloading -/

theorem providerLoad_inv {ok : Nat → Bool} {s : PState} {lk : List Ptr} (h : Inv s lk)
    (ha : s.insts = [] ∨ s.insts.length < (providerLoad ok s).insts.length) :
    ∃ lk', Inv (providerLoad ok s) lk' ∧
      (s.insts = [] → lk'.length ≤ lk.length + if (providerLoad ok s).insts = [] then 1 else 0) := by
  have hb := h.bal
  have same : ∀ m, At m (fun q => owned s q + lk.count q) → Inv { s with mem := m } lk := fun m hm =>
    ⟨hm, h.mlen, h.alen, h.clen, h.dlen, h.idle, h.err, h.own, h.meth⟩
  have fin : ∀ (r : PState), r.insts = s.insts → Inv r lk → providerLoad ok s = r →
      ∃ lk', Inv (providerLoad ok s) lk' ∧
        (s.insts = [] → lk'.length ≤ lk.length + if (providerLoad ok s).insts = [] then 1 else 0) := fun r _ hr he =>
    ⟨lk, he ▸ hr, fun _ => by omega⟩
  have hdef : providerLoad ok s = providerLoad ok s := rfl
  conv at hdef => rhs; unfold providerLoad
  cases a1 : alloc ok s.mem with
  | mk o1 m1 =>
  have h1 := hb.alloc a1
  rw [a1] at hdef
  cases o1 with
  | none => exact fin _ (by first | rfl | trivial) (same m1 (h1.congr fun q => by rw [cn_cons_none, cn_nil]; rfl)) hdef
  | some c =>
  simp only at hdef
  cases a2 : alloc ok m1 with
  | mk o2 m2 =>
  have h2 := h1.alloc a2
  rw [a2] at hdef
  cases o2 with
  | none =>
    exact fin _ (by first | rfl | trivial) (same _ (At.release (h2.congr fun q => by rw [cn_cons_none, cn_cons_some, cn_nil]; omega))) hdef
  | some e1 =>
  simp only at hdef
  cases a3 : alloc ok m2 with
  | mk o3 m3 =>
  have h3 := h2.alloc a3
  rw [a3] at hdef
  cases o3 with
  | none =>
    exact fin _ (by first | rfl | trivial) (same _ (At.release (At.release (h3.congr fun q => by
      rw [cn_cons_none, cn_cons_some, cn_cons_some, cn_nil]; omega)))) hdef
  | some l =>
  simp only at hdef
  cases a4 : alloc ok m3 with
  | mk o4 m4 =>
  have h4 := h3.alloc a4
  rw [a4] at hdef
  cases o4 with
  | none =>
    exact fin _ (by first | rfl | trivial) (same _ (At.release (At.release (At.release (h4.congr fun q => by
      rw [cn_cons_none, cn_cons_some, cn_cons_some, cn_cons_some, cn_nil]; omega))))) hdef
  | some e =>
  simp only at hdef
  cases hp : populate ok { s with mem := m4 } with
  | mk s5 rest =>
  obtain ⟨bound, b⟩ := rest
  rw [hp] at hdef
  -- everything but the variables
  let old : Ptr → Nat := fun q => if s.insts = [] then 0 else cn s.asn1 q
  let g : Ptr → Nat := fun q => old q + tot (ci · q) s.insts + tot (cc · q) s.ctxs + lk.count q +
    (c1 c q + c1 e1 q + c1 l q + c1 e q)
  obtain ⟨⟨f1, f2, f3, f4, f5, f6, f7⟩, p1, p2⟩ := populate_at (s := { s with mem := m4 }) (f := g) h.mlen h.alen
    (h4.congr fun q => by
      show owned s q + _ + _ + _ + _ + _ = old q + _ + _ + _ + _ + varsAt s q
      rw [cn_cons_some, cn_cons_some, cn_cons_some, cn_cons_some, cn_nil]
      have ho : old q = if s.insts = [] then 0 else cn s.asn1 q := rfl
      unfold owned
      omega) hp
  dsimp only at f1 f2 f3 f4 f5
  cases b with
  | true =>
    simp only at hdef
    have hbound : bound = true := by
      cases bound with
      | true => rfl
      | false => exact absurd (p2 rfl).1 (by decide)
    obtain ⟨lk1, q1, q2⟩ := p1 hbound
    have hcount : ∀ q, (if s.insts = [] then ([] : List Ptr) else s.asn1.filterMap id).count q = old q := by
      intro q
      show _ = if s.insts = [] then 0 else cn s.asn1 q
      split
      · rfl
      · generalize s.asn1 = l
        induction l with
        | nil => rfl
        | cons x r ih =>
          cases x with
          | none => rw [cn_cons_none, List.filterMap_cons_none rfl]; exact ih
          | some y =>
            rw [cn_cons_some, List.filterMap_cons_some (f := id) (a := some y) (b := y) rfl, List.count_cons, ih]
            simp only [c1, beq_iff_eq]
    refine ⟨lk ++ lk1 ++ (if s.insts = [] then [] else s.asn1.filterMap id), ?_, fun hi => ?_⟩
    · rw [hdef]
      refine ⟨q1.congr fun q => ?_, f6, f7, f2 ▸ h.clen, f3 ▸ h.dlen, (fun hx => by cases hx), fun _ =>
        ⟨_, List.mem_cons_self, rfl⟩, fun x hx => ?_, fun x hx => ?_⟩
      · rw [List.count_append, List.count_append, hcount]
        unfold owned
        dsimp only
        rw [if_neg (by simp), f4, f5]
        show old q + _ + _ + _ + (_ + _ + _ + _) + _ + _ + _ = _
        simp only [tot, ci]
        unfold varsAt
        dsimp only
        omega
      · dsimp only at hx ⊢
        rw [f5] at hx
        rw [f4]
        exact List.mem_cons_of_mem _ (h.own x hx)
      · dsimp only at hx
        rw [f5] at hx
        have := h.meth x hx
        unfold Cached at this ⊢
        dsimp only
        rw [f2, f3]
        exact this
    · rw [if_pos hi, q2 (h.idle hi).1]
      simp
  | false =>
    have hi : s.insts = [] := by
      rcases ha with ha | ha
      · exact ha
      · exfalso
        rw [hdef] at ha
        dsimp only at ha
        unfold engineFree at ha
        cases bound <;> simp [destroyEngine, f4] at ha
    have hctx : s.ctxs = [] := h.ctxs_nil hi
    have hg : ∀ q, g q = lk.count q + (c1 c q + c1 e1 q + c1 l q + c1 e q) := fun q => by
      show (if s.insts = [] then 0 else cn s.asn1 q) + tot (ci · q) s.insts + tot (cc · q) s.ctxs + lk.count q + _ = _
      rw [if_pos hi, hi, hctx]
      simp only [tot]
      omega
    simp only at hdef
    cases bound with
    | true =>
      obtain ⟨lk1, q1, q2⟩ := p1 rfl
      obtain ⟨w1, w2, w3, w4, w5, w6, w7, w8, w9, w10, w11⟩ := engineFree_at (s := s5) (e := e)
        (f := fun q => lk.count q + (c1 c q + c1 e1 q + c1 l q)) (q1.congr fun q => by
          rw [hg, q2 (h.idle hi).1, List.count_nil]; omega)
      generalize engineFree s5 e true = s6 at hdef w1 w2 w3 w4 w5 w6 w7 w8 w9 w10 w11
      have i6 : s6.insts = [] := by rw [w9, f4]; exact hi
      have c6 : s6.ctxs = [] := by rw [w10, f5]; exact hctx
      refine ⟨lk, ?_, fun _ => by omega⟩
      rw [hdef]
      refine ⟨At.release (At.release (At.release (w1.congr fun q => ?_))), w7.trans f6, w8 ▸ f7, w5.trans (f2 ▸ h.clen),
        w6.trans (f3 ▸ h.dlen), fun _ => ⟨w4, w2, w3⟩, fun hx => absurd i6 hx, fun x hx => ?_, fun x hx => ?_⟩
      · unfold owned varsAt
        dsimp only
        have hm0 : cm s6.meths q = 0 := by
          have : s6.meths = s6.meths.map fun _ => ((none : Option Ptr), (none : Option Ptr)) := by
            conv => lhs; rw [← List.map_id s6.meths]
            exact List.map_congr_left fun x hx => w4 x hx
          rw [this]
          exact cm_none _ q
        rw [i6, c6, hm0, w2.cn, w3.cn, if_pos rfl]
        simp only [tot]
        omega
      · dsimp only at hx
        rw [c6] at hx
        cases hx
      · dsimp only at hx
        rw [c6] at hx
        cases hx
    | false =>
      obtain ⟨_, r1, lk1, r2, r3⟩ := p2 rfl
      refine ⟨lk ++ lk1, ?_, fun _ => ?_⟩
      · rw [hdef]
        show Inv { s5 with mem := release (release (release (release s5.mem e) e1) l) c } _
        refine ⟨At.release (At.release (At.release (At.release (r3.congr fun q => ?_)))), f6, f7, f2 ▸ h.clen, f3 ▸ h.dlen,
          fun _ => ⟨r1 ▸ (h.idle hi).1, f2 ▸ (h.idle hi).2.1, f3 ▸ (h.idle hi).2.2⟩, fun hx => ?_, fun x hx => ?_, fun x hx => ?_⟩
        · rw [hg, List.count_append]
          unfold owned varsAt
          dsimp only
          rw [f4, f5, hi, hctx, if_pos rfl]
          simp only [tot]
          omega
        · exact absurd (f4.trans hi) hx
        · dsimp only at hx
          rw [f5, hctx] at hx
          cases hx
        · dsimp only at hx
          rw [f5, hctx] at hx
          cases hx
      · have hno : (providerLoad ok s).insts = [] := by
          rw [hdef]
          exact f4.trans hi
        rw [if_pos hno, List.length_append]
        omega

theorem unload_inv {s : PState} {lk : List Ptr} {i : Inst} (h : Inv s lk) (hi : s.insts = [i]) (hc : s.ctxs = []) :
    Inv (gostTeardown { s with insts := [] } i) lk := by
  unfold gostTeardown
  dsimp only
  have hb : At s.mem (fun q => cm s.meths q + cn s.digests q + cn s.asn1 q + ci i q + lk.count q + cn s.ciphers q) :=
    h.bal.congr fun q => by
      unfold owned varsAt
      rw [hi, hc, if_neg (by simp)]
      simp only [tot]
      omega
  have h1 := At.deinit (is := deinit_ciphers_list) hb
  have l1 : (deinitMeths s.mem s.ciphers deinit_ciphers_list).2.length = s.ciphers.length := deinit_length
  generalize deinitMeths s.mem s.ciphers deinit_ciphers_list = c at h1 l1
  have h2 := At.deinit (is := deinit_digests_list) (m := c.1) (l := s.digests)
    (f := fun q => cm s.meths q + cn s.asn1 q + ci i q + lk.count q + cn c.2 q) (h1.congr fun q => by omega)
  have l2 : (deinitMeths c.1 s.digests deinit_digests_list).2.length = s.digests.length := deinit_length
  generalize deinitMeths c.1 s.digests deinit_digests_list = d at h2 l2
  have h3 := At.deinit (is := deinit_mac_digests_list) h2
  have l3 : (deinitMeths d.1 d.2 deinit_mac_digests_list).2.length = d.2.length := deinit_length
  generalize deinitMeths d.1 d.2 deinit_mac_digests_list = d2 at h3 l3
  unfold providerCtxFree
  dsimp only
  obtain ⟨w1, w2, w3, w4, w5, w6, w7, w8, w9, w10, w11⟩ := engineFree_at
    (s := { s with mem := d2.1, ciphers := c.2, digests := d2.2, insts := [] }) (e := i.e)
    (f := fun q => lk.count q + (c1 i.self q + c1 i.proverr q + c1 i.libctx q)) (h3.congr fun q => by
      unfold varsAt ci
      dsimp only
      omega)
  dsimp only at w1 w2 w3 w4 w5 w6 w7 w8 w9 w10 w11
  generalize engineFree { s with mem := d2.1, ciphers := c.2, digests := d2.2, insts := [] } i.e true = s6
    at w1 w2 w3 w4 w5 w6 w7 w8 w9 w10 w11 ⊢
  have c6 : s6.ctxs = [] := w10.trans hc
  refine ⟨At.release (At.release (At.release (w1.congr fun q => ?_))), w7.trans h.mlen, w8 ▸ h.alen,
    w5.trans (l1.trans h.clen), w6.trans (l3.trans (l2.trans h.dlen)), fun _ => ⟨w4, w2, w3⟩, fun hx => absurd w9 hx,
    fun x hx => ?_, fun x hx => ?_⟩
  · unfold owned varsAt
    dsimp only
    have hm0 : cm s6.meths q = 0 := by
      have : s6.meths = s6.meths.map fun _ => ((none : Option Ptr), (none : Option Ptr)) := by
        conv => lhs; rw [← List.map_id s6.meths]
        exact List.map_congr_left fun x hx => w4 x hx
      rw [this]
      exact cm_none _ q
    rw [w9, c6, hm0, w2.cn, w3.cn, if_pos rfl]
    simp only [tot]
    omega
  · dsimp only at hx
    rw [c6] at hx
    cases hx
  · dsimp only at hx
    rw [c6] at hx
    cases hx

/-! ## Histories -/

namespace Spec

/-- No instance goes away, and no load fails, while another instance is loaded. -/
def Alone (ok : Nat → Bool) (s : PState) : Ev → Prop
  | .load => s.insts = [] ∨ s.insts.length < (pStep ok s .load).insts.length
  | .unload _ => s.insts.length ≤ 1
  | _ => True

/-- The same along a history. -/
def AloneAll (ok : Nat → Bool) : PState → List Ev → Prop
  | _, [] => True
  | s, e :: r => Alone ok s e ∧ AloneAll ok (pStep ok s e) r

/-- The module is loaded only when it is not loaded already. -/
def OneAtATime (ok : Nat → Bool) : PState → List Ev → Prop
  | _, [] => True
  | s, e :: r => (e = .load → s.insts = []) ∧ OneAtATime ok (pStep ok s e) r

/-- The number of loads of a history that failed while nothing was loaded. -/
def failedLoads (ok : Nat → Bool) : PState → List Ev → Nat
  | _, [] => 0
  | s, e :: r => (if e = .load ∧ (pStep ok s e).insts = [] then 1 else 0) + failedLoads ok (pStep ok s e) r

end Spec

theorem Inv.instPos {s : PState} {lk : List Ptr} (_h : Inv s lk) {i : Inst} (hi : i ∈ s.insts) :
    (∀ q, ci i q ≤ tot (ci · q) s.insts) := fun q => tot_mem (ci · q) hi

theorem ci_self (i : Inst) : 0 < ci i i.self ∧ 0 < ci i i.e ∧ 0 < ci i i.proverr := by
  unfold ci c1
  simp
  omega

theorem cc_self (c : Ctx) : 0 < cc c c.self ∧ 0 < cc c c.cctx := by
  unfold cc c1
  simp
  omega

theorem step_inv {ok : Nat → Bool} {s : PState} {lk : List Ptr} (h : Inv s lk) (ev : Ev) (ha : Spec.Alone ok s ev) :
    ∃ lk', Inv (pStep ok s ev) lk' ∧ ((ev = .load → s.insts = []) →
      lk'.length ≤ lk.length + if ev = .load ∧ (pStep ok s ev).insts = [] then 1 else 0) := by
  have keep : ∀ s', Inv s' lk → pStep ok s ev = s' → ∃ lk', Inv (pStep ok s ev) lk' ∧ ((ev = .load → s.insts = []) →
      lk'.length ≤ lk.length + if ev = .load ∧ (pStep ok s ev).insts = [] then 1 else 0) :=
    fun s' hs he => ⟨lk, he ▸ hs, fun _ => by omega⟩
  have hb := h.bal
  have hvars : At s.mem (fun q => ((if s.insts = [] then 0 else cn s.asn1 q) + tot (ci · q) s.insts + tot (cc · q) s.ctxs +
      lk.count q) + varsAt s q) := hb.congr fun q => by unfold owned; omega
  cases ev with
  | load =>
    obtain ⟨lk', h1, h2⟩ := providerLoad_inv h (ok := ok) ha
    refine ⟨lk', h1, fun hi => ?_⟩
    have := h2 (hi rfl)
    show lk'.length ≤ lk.length + if Ev.load = .load ∧ (providerLoad ok s).insts = [] then 1 else 0
    by_cases hx : (providerLoad ok s).insts = []
    · rw [if_pos hx] at this
      rw [if_pos ⟨rfl, hx⟩]; exact this
    · rw [if_neg hx] at this
      rw [if_neg (fun hh => hx hh.2)]; exact this
  | unload n =>
    cases hn : s.insts[n]? with
    | none => exact keep s h (by simp only [pStep, hn])
    | some i =>
      by_cases hany : s.ctxs.any (fun c => c.owner.self = i.self)
      · exact keep s h (by simp only [pStep, hn, if_pos hany])
      · have hlen : s.insts.length ≤ 1 := ha
        have hlt : n < s.insts.length := (List.getElem?_eq_some_iff.1 hn).1
        have hn0 : n = 0 := by omega
        subst hn0
        have hi : s.insts = [i] := by
          cases hs : s.insts with
          | nil => rw [hs] at hn; simp at hn
          | cons x r =>
            rw [hs] at hn hlen
            simp at hn hlen
            rw [hn, hlen]
        have hc : s.ctxs = [] := by
          cases hs : s.ctxs with
          | nil => rfl
          | cons c r =>
            exfalso
            have := h.own c (by rw [hs]; exact List.mem_cons_self)
            rw [hi, List.mem_singleton] at this
            refine hany ?_
            rw [hs, List.any_cons, this]
            simp
        refine keep _ (unload_inv h hi hc) ?_
        simp only [pStep, hn, if_neg hany]
        rw [hi]
        rfl
  | fetch n k =>
    cases hn : s.insts[n]? with
    | none => exact keep s h (by simp only [pStep, hn])
    | some i =>
      have hne : s.insts ≠ [] := List.ne_nil_of_mem (List.mem_of_getElem? hn)
      cases hk : kindMeth ok s k with
      | mk o s1 =>
      obtain ⟨fr, h1, h2⟩ := kindMeth_at h.clen h.dlen hvars hk
      have hinv : Inv s1 lk := h.frame fr hne (h1.congr fun q => by
        unfold owned
        rw [fr.insts, fr.asn1, fr.ctxs]; omega)
      cases o with
      | none => exact keep s1 hinv (by simp only [pStep, hn, hk])
      | some p =>
        refine keep s1 hinv ?_
        have ht : touch s1.mem p = s1.mem := hinv.bal.touch (by
          have := (h2 p rfl).pos
          unfold owned; omega)
        simp only [pStep, hn, hk, ht]
  | newctx n k =>
    cases hn : s.insts[n]? with
    | none => exact keep s h (by simp only [pStep, hn])
    | some i =>
      have hmem := List.mem_of_getElem? hn
      have hne : s.insts ≠ [] := List.ne_nil_of_mem hmem
      have hp := h.instPos hmem
      cases hk : newctx ok s i k with
      | mk o s1 =>
      obtain ⟨fr, h1, h2⟩ := newctx_at h.clen h.dlen hvars (by have := hp i.self; have := ci_self i; omega)
        (by have := hp i.e; have := ci_self i; omega) hk
      cases o with
      | none =>
        refine keep s1 (h.frame fr hne ((h1 rfl).congr fun q => ?_)) (by simp only [pStep, hn, hk])
        unfold owned
        rw [fr.insts, fr.asn1, fr.ctxs]; omega
      | some c =>
        obtain ⟨g1, g2, g3, _⟩ := h2 c rfl
        refine keep { s1 with ctxs := c :: s1.ctxs } ?_ (by simp only [pStep, hn, hk])
        refine ⟨g1.congr fun q => ?_, fr.meths ▸ h.mlen, fr.asn1 ▸ h.alen, fr.clen.trans h.clen, fr.dlen.trans h.dlen,
          fun hi => absurd (fr.insts ▸ hi) hne, fun _ => ?_, fun x hx => ?_, fun x hx => ?_⟩
        · unfold owned varsAt
          dsimp only
          rw [fr.insts, fr.asn1, fr.ctxs]
          simp only [tot]
          omega
        · dsimp only
          rw [fr.insts, fr.err]
          exact h.err hne
        · dsimp only
          rw [fr.insts]
          rcases List.mem_cons.1 hx with rfl | hx
          · exact g2 ▸ hmem
          · exact h.own x (fr.ctxs ▸ hx)
        · rcases List.mem_cons.1 hx with rfl | hx
          · exact g3
          · exact fr.cached _ (h.meth x (fr.ctxs ▸ hx))
  | dup n =>
    cases hn : s.ctxs[n]? with
    | none => exact keep s h (by simp only [pStep, hn])
    | some c =>
      have hcm := List.mem_of_getElem? hn
      have hmem := h.own c hcm
      have hne : s.insts ≠ [] := List.ne_nil_of_mem hmem
      have hp := h.instPos hmem
      have hcc : ∀ q, cc c q ≤ tot (cc · q) s.ctxs := fun q => tot_mem (cc · q) hcm
      have ht : touch s.mem c.self = s.mem := hb.touch (by
        have := hcc c.self
        have := cc_self c
        unfold owned; omega)
      have hts : ({ s with mem := touch s.mem c.self } : PState) = s := by rw [ht]
      cases hk : newctx ok s c.owner c.kind with
      | mk o s1 =>
      obtain ⟨fr, h1, h2⟩ := newctx_at h.clen h.dlen hvars (by have := hp c.owner.self; have := ci_self c.owner; omega)
        (by have := hp c.owner.e; have := ci_self c.owner; omega) hk
      cases o with
      | none =>
        refine keep s1 (h.frame fr hne ((h1 rfl).congr fun q => ?_)) (by simp only [pStep, hn, hts, hk])
        unfold owned
        rw [fr.insts, fr.asn1, fr.ctxs]; omega
      | some d =>
        obtain ⟨g1, g2, g3, g4⟩ := h2 d rfl
        have hcach := fr.cached _ (h.meth c hcm)
        have hsplit : ∀ q, tot (cc · q) s.ctxs = tot (cc · q) (s.ctxs.eraseIdx n) + cc c q := fun q => tot_erase (cc · q) hn
        obtain ⟨k1, k2, k3⟩ := copyCtx_at (ok := ok) (m := s1.mem) (d := d) (c := c)
          (f := fun q => (if s.insts = [] then 0 else cn s.asn1 q) + tot (ci · q) s.insts + tot (cc · q) (s.ctxs.eraseIdx n) +
            lk.count q + varsAt s1 q)
          (g1.congr fun q => by rw [hsplit q]; omega) (by have := hcach.pos; omega)
          (by have := g3.pos; omega) g4
        refine keep { s1 with mem := (copyCtx ok s1.mem d c).1, ctxs := (copyCtx ok s1.mem d c).2 :: s1.ctxs } ?_
          (by simp only [pStep, hn, hts, hk])
        generalize copyCtx ok s1.mem d c = r at k1 k2 k3
        refine ⟨k1.congr fun q => ?_, fr.meths ▸ h.mlen, fr.asn1 ▸ h.alen, fr.clen.trans h.clen, fr.dlen.trans h.dlen,
          fun hi => absurd (fr.insts ▸ hi) hne, fun _ => ?_, fun x hx => ?_, fun x hx => ?_⟩
        · unfold owned varsAt
          dsimp only
          rw [fr.insts, fr.asn1, fr.ctxs]
          simp only [tot]
          rw [hsplit q]
          omega
        · dsimp only
          rw [fr.insts, fr.err]
          exact h.err hne
        · dsimp only
          rw [fr.insts]
          rcases List.mem_cons.1 hx with rfl | hx
          · rw [k2, g2]; exact hmem
          · exact h.own x (fr.ctxs ▸ hx)
        · rcases List.mem_cons.1 hx with rfl | hx
          · rcases k3 with k3 | k3
            · rw [k3]; exact g3
            · rw [k3]; exact hcach
          · exact fr.cached _ (h.meth x (fr.ctxs ▸ hx))
  | init n =>
    cases hn : s.ctxs[n]? with
    | none => exact keep s h (by simp only [pStep, hn])
    | some c =>
      have hcm := List.mem_of_getElem? hn
      have hmem := h.own c hcm
      have hne : s.insts ≠ [] := List.ne_nil_of_mem hmem
      have hp := h.instPos hmem
      have hsplit : ∀ q, tot (cc · q) s.ctxs = tot (cc · q) (s.ctxs.eraseIdx n) + cc c q := fun q => tot_erase (cc · q) hn
      obtain ⟨k1, k2, k3, _⟩ := startCtx_at (ok := ok) (m := s.mem) (c := c)
        (f := fun q => (if s.insts = [] then 0 else cn s.asn1 q) + tot (ci · q) s.insts + tot (cc · q) (s.ctxs.eraseIdx n) +
            lk.count q + varsAt s q)
        (hb.congr fun q => by unfold owned; rw [hsplit q]; omega)
        (by have := hp c.owner.self; have := ci_self c.owner; omega)
        (by have := hp c.owner.e; have := ci_self c.owner; omega)
        (by have := (h.meth c hcm).pos; omega)
      refine keep { s with mem := (startCtx ok s.mem c).1, ctxs := s.ctxs.set n (startCtx ok s.mem c).2 } ?_
        (by simp only [pStep, hn])
      generalize startCtx ok s.mem c = r at k1 k2 k3
      refine h.withCtxs hne _ _ (k1.congr fun q => ?_) (fun x hx => ?_) (fun x hx => ?_)
      · unfold owned varsAt
        dsimp only
        rw [tot_set (cc · q) r.2 hn]
        omega
      · rcases List.mem_or_eq_of_mem_set hx with hx | rfl
        · exact h.own x hx
        · rw [k2]; exact hmem
      · rcases List.mem_or_eq_of_mem_set hx with hx | rfl
        · exact h.meth x hx
        · rw [k3]; exact h.meth c hcm
  | update n =>
    cases hn : s.ctxs[n]? with
    | none => exact keep s h (by simp only [pStep, hn])
    | some c =>
      have hcm := List.mem_of_getElem? hn
      have hcc : ∀ q, cc c q ≤ tot (cc · q) s.ctxs := fun q => tot_mem (cc · q) hcm
      have t1 : touch s.mem c.self = s.mem := hb.touch (by
        have := hcc c.self
        have := cc_self c
        unfold owned; omega)
      have t2 : touch s.mem c.cctx = s.mem := hb.touch (by
        have := hcc c.cctx
        have := cc_self c
        unfold owned; omega)
      have t3 : touch s.mem c.meth = s.mem := hb.touch (by
        have := (h.meth c hcm).pos
        unfold owned; omega)
      refine keep s h ?_
      simp only [pStep, hn, t1, t2, t3]
      cases hs : c.started with
      | false => rfl
      | true =>
        cases hd : c.data with
        | none => rfl
        | some d =>
          have t4 : touch s.mem d = s.mem := hb.touch (by
            have h1 := hcc d
            have h2 : 0 < cc c d := by
              unfold cc
              rw [hd, cn_cons_some]
              simp only [c1, if_true]
              omega
            unfold owned; omega)
          simp only [if_true, t4]
  | free n =>
    cases hn : s.ctxs[n]? with
    | none => exact keep s h (by simp only [pStep, hn])
    | some c =>
      have hcm := List.mem_of_getElem? hn
      have hmem := h.own c hcm
      have hne : s.insts ≠ [] := List.ne_nil_of_mem hmem
      have hsplit : ∀ q, tot (cc · q) s.ctxs = tot (cc · q) (s.ctxs.eraseIdx n) + cc c q := fun q => tot_erase (cc · q) hn
      refine keep { s with mem := freectx s.mem c, ctxs := s.ctxs.eraseIdx n } ?_ (by simp only [pStep, hn])
      refine h.withCtxs hne _ _ (freectx_at (hb.congr fun q => ?_) ?_) (fun x hx => ?_) (fun x hx => ?_)
      · unfold owned varsAt
        dsimp only
        rw [hsplit q]
        omega
      · have := (h.meth c hcm).pos
        unfold varsAt at this
        unfold owned varsAt
        dsimp only
        omega
      · exact h.own x (List.mem_of_mem_eraseIdx hx)
      · exact h.meth x (List.mem_of_mem_eraseIdx hx)
  | error n =>
    cases hn : s.insts[n]? with
    | none => exact keep s h (by simp only [pStep, hn])
    | some i =>
      have hmem := List.mem_of_getElem? hn
      obtain ⟨j, hj, he⟩ := h.err (List.ne_nil_of_mem hmem)
      refine keep s h ?_
      have ht : touch s.mem j.proverr = s.mem := hb.touch (by
        have := h.instPos hj j.proverr
        have := ci_self j
        unfold owned; omega)
      simp only [pStep, hn, raiseError, he, touchOpt, ht]
      rw [← he]

theorem run_inv {ok : Nat → Bool} : ∀ {evs : List Ev} {s : PState} {lk : List Ptr}, Inv s lk → Spec.AloneAll ok s evs →
    ∃ lk', Inv (pRun ok s evs) lk' ∧ (Spec.OneAtATime ok s evs → lk'.length ≤ lk.length + Spec.failedLoads ok s evs) := by
  intro evs
  induction evs with
  | nil => exact fun h _ => ⟨_, h, fun _ => Nat.le_refl _⟩
  | cons e r ih =>
    intro s lk h ha
    obtain ⟨lk1, h1, h2⟩ := step_inv h e ha.1
    obtain ⟨lk2, h3, h4⟩ := ih h1 ha.2
    refine ⟨lk2, h3, fun ho => ?_⟩
    have := h2 ho.1
    have := h4 ho.2
    show lk2.length ≤ lk.length + ((if e = .load ∧ (pStep ok s e).insts = [] then 1 else 0) + _)
    omega

/-- **C77.** As long as no instance is unloaded and no load fails while another instance is loaded, no history of loads, unloads,
fetches, contexts and errors, whichever allocations fail, uses or frees an object that is not allocated. -/
theorem C77_alone_safe_partial (ok : Nat → Bool) (evs : List Ev) (h : Spec.AloneAll ok pInit evs) :
    (pRun ok pInit evs).mem.fault = false := by
  obtain ⟨lk, hi, _⟩ := run_inv inv_init h
  exact hi.bal.1

/-- At most one instance is loaded in a one-at-a-time history, so it is one to which `C77_alone_safe_partial` applies. -/
theorem load_insts (ok : Nat → Bool) (s : PState) :
    (providerLoad ok s).insts = s.insts ∨ ∃ i, (providerLoad ok s).insts = i :: s.insts := by
  have hef : ∀ (t : PState) (e : Ptr) (b : Bool), (engineFree t e b).insts = t.insts := by
    intro t e b
    unfold engineFree
    cases b <;> rfl
  have hpop : ∀ t : PState, (populate ok t).1.insts = t.insts := by
    intro t
    unfold populate
    cases createNIDs ok t.mem t.asn1 with
    | mk m1 rest =>
    obtain ⟨a, b⟩ := rest
    cases b <;> rfl
  unfold providerLoad
  cases alloc ok s.mem with
  | mk o1 m1 =>
  cases o1 with
  | none => exact Or.inl rfl
  | some c =>
  simp only
  cases alloc ok m1 with
  | mk o2 m2 =>
  cases o2 with
  | none => exact Or.inl rfl
  | some h =>
  simp only
  cases alloc ok m2 with
  | mk o3 m3 =>
  cases o3 with
  | none => exact Or.inl rfl
  | some l =>
  simp only
  cases alloc ok m3 with
  | mk o4 m4 =>
  cases o4 with
  | none => exact Or.inl rfl
  | some e =>
  simp only
  have hp := hpop { s with mem := m4 }
  cases hq : populate ok { s with mem := m4 } with
  | mk s5 rest =>
  obtain ⟨bound, b⟩ := rest
  rw [hq] at hp
  cases b with
  | true => exact Or.inr ⟨⟨c, h, l, e⟩, congrArg (_ :: ·) hp⟩
  | false => exact Or.inl ((hef s5 e bound).trans hp)

theorem teardown_insts (s : PState) (i : Inst) : (gostTeardown s i).insts = s.insts := by
  unfold gostTeardown providerCtxFree engineFree
  rfl

theorem kindMeth_insts (ok : Nat → Bool) (s : PState) (k : Kind) : (kindMeth ok s k).2.insts = s.insts := by
  cases k with
  | cipher row => simp only [kindMeth]; cases GOST_prov_ciphers[row]? <;> rfl
  | digest row => simp only [kindMeth]; cases GOST_prov_digests[row]? <;> rfl
  | mac row => simp only [kindMeth]; cases GOST_prov_macs[row]? <;> rfl

theorem newctx_insts (ok : Nat → Bool) (s : PState) (i : Inst) (k : Kind) : (newctx ok s i k).2.insts = s.insts := by
  unfold newctx
  cases alloc ok s.mem with
  | mk o1 m1 =>
  cases o1 with
  | none => rfl
  | some g =>
  simp only
  have hk := kindMeth_insts ok { s with mem := m1 } k
  cases hq : kindMeth ok { s with mem := m1 } k with
  | mk o2 s2 =>
  rw [hq] at hk
  cases o2 with
  | none => exact hk
  | some meth =>
  simp only
  cases alloc ok s2.mem with
  | mk o3 m3 =>
  cases o3 with
  | none => exact hk
  | some c =>
  simp only
  cases k.isMac with
  | false => exact hk
  | true =>
    rw [if_pos rfl]
    split
    · exact hk
    · exact hk

theorem one_step {ok : Nat → Bool} {s : PState} {e : Ev} (hl : s.insts.length ≤ 1) (he : e = .load → s.insts = []) :
    (pStep ok s e).insts.length ≤ 1 := by
  cases e with
  | load =>
    have h0 := he rfl
    rcases load_insts ok s with h | ⟨i, h⟩
    · show (providerLoad ok s).insts.length ≤ 1
      rw [h]; exact hl
    · show (providerLoad ok s).insts.length ≤ 1
      rw [h, h0]
      exact Nat.le_refl 1
  | unload n =>
    simp only [pStep]
    cases s.insts[n]? with
    | none => exact hl
    | some i =>
      simp only
      split
      · exact hl
      · rw [teardown_insts]
        exact Nat.le_trans (List.length_eraseIdx_le _ _) hl
  | fetch n k =>
    simp only [pStep]
    cases s.insts[n]? with
    | none => exact hl
    | some i =>
      simp only
      have hk := kindMeth_insts ok s k
      cases hq : kindMeth ok s k with
      | mk o s1 =>
      rw [hq] at hk
      cases o with
      | none => exact hk ▸ hl
      | some p => exact hk ▸ hl
  | newctx n k =>
    simp only [pStep]
    cases s.insts[n]? with
    | none => exact hl
    | some i =>
      simp only
      have hk := newctx_insts ok s i k
      cases hq : newctx ok s i k with
      | mk o s1 =>
      rw [hq] at hk
      cases o with
      | none => exact hk ▸ hl
      | some p => exact hk ▸ hl
  | dup n =>
    simp only [pStep]
    cases s.ctxs[n]? with
    | none => exact hl
    | some c =>
      simp only
      have hk := newctx_insts ok { s with mem := touch s.mem c.self } c.owner c.kind
      cases hq : newctx ok { s with mem := touch s.mem c.self } c.owner c.kind with
      | mk o s1 =>
      rw [hq] at hk
      cases o with
      | none => exact hk ▸ hl
      | some p => exact hk ▸ hl
  | init n =>
    simp only [pStep]
    cases s.ctxs[n]? <;> exact hl
  | update n =>
    simp only [pStep]
    cases s.ctxs[n]? with
    | none => exact hl
    | some c =>
      simp only
      split <;> exact hl
  | free n =>
    simp only [pStep]
    cases s.ctxs[n]? <;> exact hl
  | error n =>
    simp only [pStep]
    cases s.insts[n]? <;> exact hl

theorem one_alone {ok : Nat → Bool} : ∀ {evs : List Ev} {s : PState}, s.insts.length ≤ 1 → Spec.OneAtATime ok s evs →
    Spec.AloneAll ok s evs := by
  intro evs
  induction evs with
  | nil => exact fun _ _ => trivial
  | cons e r ih =>
    intro s hl h
    refine ⟨?_, ih (one_step hl h.1) h.2⟩
    cases e with
    | load => exact Or.inl (h.1 rfl)
    | unload n => exact hl
    | _ => trivial

/-- **C77.** With the module loaded only when it is not loaded already, the same holds. -/
theorem C77_one_at_a_time_safe_partial (ok : Nat → Bool) (evs : List Ev) (h : Spec.OneAtATime ok pInit evs) :
    (pRun ok pInit evs).mem.fault = false :=
  C77_alone_safe_partial ok evs (one_alone (Nat.zero_le _) h)

/-- **C77.** After a history with the module loaded only when it is not loaded already, and unloaded at the end, everything it
allocated has been freed, except at most one object for each load that failed. -/
theorem C77_one_at_a_time_frees_partial (ok : Nat → Bool) (evs : List Ev) (h : Spec.OneAtATime ok pInit evs)
    (he : (pRun ok pInit evs).insts = []) : (pRun ok pInit evs).mem.live.length ≤ Spec.failedLoads ok pInit evs := by
  obtain ⟨lk, hi, hl⟩ := run_inv inv_init (one_alone (Nat.zero_le _) h)
  have hlk := hl h
  have hz : ∀ q, owned (pRun ok pInit evs) q = 0 := by
    intro q
    obtain ⟨i1, i2, i3⟩ := hi.idle he
    have hm0 : cm (pRun ok pInit evs).meths q = 0 := by
      have : (pRun ok pInit evs).meths = (pRun ok pInit evs).meths.map fun _ => ((none : Option Ptr), (none : Option Ptr)) := by
        conv => lhs; rw [← List.map_id (pRun ok pInit evs).meths]
        exact List.map_congr_left fun x hx => i1 x hx
      rw [this]
      exact cm_none _ q
    unfold owned varsAt
    rw [he, hi.ctxs_nil he, if_pos rfl, hm0, i2.cn, i3.cn]
    rfl
  have hperm : (pRun ok pInit evs).mem.live.Perm lk := List.perm_iff_count.2 fun q => by
    rw [hi.bal.2 q]
    show owned (pRun ok pInit evs) q + List.count q lk = List.count q lk
    rw [hz q, Nat.zero_add]
  rw [hperm.length_eq]
  exact Nat.le_trans hlk (by simp)

/-- **C77.** So if no load failed, nothing is left. -/
theorem C77_nothing_left_partial (ok : Nat → Bool) (evs : List Ev) (h : Spec.OneAtATime ok pInit evs)
    (he : (pRun ok pInit evs).insts = []) (hf : Spec.failedLoads ok pInit evs = 0) : (pRun ok pInit evs).mem.live = [] := by
  have := C77_one_at_a_time_frees_partial ok evs h he
  rw [hf] at this
  exact List.length_eq_zero_iff.1 (Nat.le_zero.1 this)

/-! ### Histories that meet the hypotheses -/

/-- Load, fetch, make, initialise, duplicate, use and free contexts of a cipher, a digest and a MAC, report an error, unload, and
load and unload once more. -/
def goodHistory : List Ev :=
  [.load, .fetch 0 (.cipher 3), .newctx 0 (.cipher 3), .init 0, .update 0, .dup 0, .newctx 0 (.mac 1), .newctx 0 (.digest 2),
    .init 0, .update 0, .error 0, .unload 0, .free 0, .free 0, .free 0, .free 0, .unload 0, .load, .error 0, .unload 0]

instance (ok : Nat → Bool) (s : PState) (e : Ev) : Decidable (Spec.Alone ok s e) := by
  cases e <;> (simp only [Spec.Alone]; infer_instance)

def decideAlone (ok : Nat → Bool) : (s : PState) → (evs : List Ev) → Decidable (Spec.AloneAll ok s evs)
  | _, [] => isTrue trivial
  | s, e :: r =>
    match (inferInstance : Decidable (Spec.Alone ok s e)), decideAlone ok (pStep ok s e) r with
    | isTrue h1, isTrue h2 => isTrue ⟨h1, h2⟩
    | isFalse h1, _ => isFalse fun h => h1 h.1
    | _, isFalse h2 => isFalse fun h => h2 h.2

def decideOne (ok : Nat → Bool) : (s : PState) → (evs : List Ev) → Decidable (Spec.OneAtATime ok s evs)
  | _, [] => isTrue trivial
  | s, e :: r =>
    match (inferInstance : Decidable (e = .load → s.insts = [])), decideOne ok (pStep ok s e) r with
    | isTrue h1, isTrue h2 => isTrue ⟨h1, h2⟩
    | isFalse h1, _ => isFalse fun h => h1 h.1
    | _, isFalse h2 => isFalse fun h => h2 h.2

instance (ok : Nat → Bool) (s : PState) (evs : List Ev) : Decidable (Spec.AloneAll ok s evs) := decideAlone ok s evs
instance (ok : Nat → Bool) (s : PState) (evs : List Ev) : Decidable (Spec.OneAtATime ok s evs) := decideOne ok s evs

/-- It is such a history, it makes contexts that work, and nothing is left. -/
example : Spec.OneAtATime (fun _ => true) pInit goodHistory ∧ (pRun (fun _ => true) pInit goodHistory).insts = [] ∧
    Spec.failedLoads (fun _ => true) pInit goodHistory = 0 ∧
    (pRun (fun _ => true) pInit (goodHistory.take 12)).ctxs.length = 4 ∧
    (pRun (fun _ => true) pInit (goodHistory.take 12)).mem.live.length = 39 := by decide +kernel

/-- Two instances, with contexts of both, neither unloaded. -/
example : Spec.AloneAll (fun _ => true) pInit [.load, .newctx 0 (.cipher 3), .load, .newctx 0 (.cipher 3), .init 0, .init 1, .error 1] ∧
    (pRun (fun _ => true) pInit [.load, .newctx 0 (.cipher 3), .load, .newctx 0 (.cipher 3), .init 0, .init 1, .error 1]).insts.length
      = 2 := by decide +kernel

/-- A load in which an allocation in the middle of the registration fails, and one in which that of the second OID fails. -/
example : Spec.OneAtATime (fun n => n != 15) pInit [.load, .load, .unload 0] ∧
    Spec.failedLoads (fun n => n != 15) pInit [.load, .load, .unload 0] = 1 ∧
    (pRun (fun n => n != 15) pInit [.load, .load, .unload 0]).mem.live = [] ∧
    (pRun (fun n => n != 6) pInit [.load, .load, .unload 0]).mem.live.length = 1 := by decide +kernel

/-! ### The claim for any number of instances is false -/

/-- **C77.** Two instances; one is unloaded; the other reports an error: the handle used has been freed (if the one unloaded was
loaded last), although the instance in use has its own. -/
theorem C77_stale_error_handle_false :
    (pRun (fun _ => true) pInit [.load, .load, .unload 0]).mem.fault = false ∧
    (pRun (fun _ => true) pInit [.load, .load, .unload 0, .error 0]).mem.fault = true ∧
    (pRun (fun _ => true) pInit [.load, .load, .unload 0]).insts.all
      (fun i => i.proverr ∈ (pRun (fun _ => true) pInit [.load, .load, .unload 0]).mem.live) = true := by decide +kernel

/-- **C77.** Two instances, both unloaded, in either order: an object is freed twice. -/
theorem C77_double_free_false :
    (pRun (fun _ => true) pInit [.load, .load, .unload 0, .unload 0]).mem.fault = true ∧
    (pRun (fun _ => true) pInit [.load, .load, .unload 1, .unload 0]).mem.fault = true := by decide +kernel

/-- **C77.** Two instances, a context of the first; unloading the other frees the method the context goes through, in either
order of loading. -/
theorem C77_method_freed_false :
    (pRun (fun _ => true) pInit [.load, .newctx 0 (.cipher 3), .init 0, .load, .unload 0]).mem.fault = false ∧
    (pRun (fun _ => true) pInit [.load, .newctx 0 (.cipher 3), .init 0, .load, .unload 0, .update 0]).mem.fault = true ∧
    (pRun (fun _ => true) pInit [.load, .load, .newctx 0 (.cipher 3), .init 0, .unload 1, .update 0]).mem.fault = true := by
  decide +kernel

/-- **C77.** A load that fails for lack of memory has the same effect on an instance already loaded. -/
theorem C77_failed_load_false :
    (pRun (fun n => n != 44) pInit [.load, .newctx 0 (.cipher 3), .init 0, .load]).insts.length = 1 ∧
    (pRun (fun n => n != 44) pInit [.load, .newctx 0 (.cipher 3), .init 0, .load]).mem.fault = false ∧
    (pRun (fun n => n != 44) pInit [.load, .newctx 0 (.cipher 3), .init 0, .load, .update 0]).mem.fault = true := by
  decide +kernel

/-- **C77.** Loading a second instance loses what the variables had of the first: after both are unloaded some of it is left. -/
theorem C77_second_load_leaks_false :
    (pRun (fun _ => true) pInit [.load, .load, .unload 0, .unload 0]).mem.live.length = 20 := by decide +kernel

/-! ## Dispatch tables -/

namespace Spec

/-- libcrypto reads a dispatch table from the start to the entry with number 0; `none` is reading past the end of the table. -/
def scan : List Fn → Option (List Fn)
  | [] => none
  | .stop :: _ => some []
  | f :: r => (scan r).map (f :: ·)

/-- What libcrypto requires of a table for an operation (`evp_cipher_from_algorithm`, `evp_md_from_algorithm`,
`evp_mac_from_algorithm` of OpenSSL 3). -/
def required : Op → List Fn
  | .cipher => [.newctx, .freectx, .encryptInit, .decryptInit, .update, .final]
  | .digest => [.newctx, .freectx, .init, .update, .final]
  | .mac => [.newctx, .freectx, .init, .update, .final]
  | .other => []

/-- The algorithm can be fetched: the scan ends within the table and finds what is required. -/
def Fetchable (op : Op) (t : List Fn) : Prop := ∃ fs, scan t = some fs ∧ ∀ f ∈ required op, f ∈ fs

end Spec

/-- **C76.** Every cipher the provider lists can be fetched, and so can the provider itself: the scan of its table ends
within it. -/
theorem C76_ciphers_fetchable_partial (t : List Fn) (ht : t ∈ gost_operation .cipher) : Spec.Fetchable .cipher t := by
  obtain ⟨_, _, rfl⟩ := List.mem_map.1 ht
  exact ⟨_, rfl, by decide⟩

/-- **C76.** The provider's own table. -/
theorem C76_provider_table :
    Spec.scan provider_functions = some [.query, .reasonStrings, .getParams, .teardown] := rfl

theorem scan_append : ∀ {l rest : List Fn}, (∀ f ∈ l, f ≠ .stop) → Spec.scan (l ++ rest) = (Spec.scan rest).map (l ++ ·) := by
  intro l
  induction l with
  | nil => intro rest _; rw [List.nil_append]; cases Spec.scan rest <;> rfl
  | cons f r ih =>
    intro rest h
    have hf : f ≠ .stop := h f List.mem_cons_self
    have hr := ih (rest := rest) fun g hg => h g (List.mem_cons_of_mem _ hg)
    have h1 : Spec.scan (f :: (r ++ rest)) = (Spec.scan (r ++ rest)).map (f :: ·) := by
      cases f <;> first | exact absurd rfl hf | rfl
    rw [List.cons_append, h1, hr]
    cases Spec.scan rest <;> rfl

/-- **C76.** No digest and no MAC the provider lists can be fetched without reading past the end of its table. -/
theorem C76_digests_and_macs_false (op : Op) (ho : op = .digest ∨ op = .mac) (t : List Fn) (ht : t ∈ gost_operation op) :
    Spec.scan t = none ∧ ¬ Spec.Fetchable op t := by
  have h : Spec.scan t = none := by
    rcases ho with rfl | rfl
    · obtain ⟨_, _, rfl⟩ := List.mem_map.1 ht
      rfl
    · obtain ⟨_, _, rfl⟩ := List.mem_map.1 ht
      rfl
  exact ⟨h, fun ⟨fs, hs, _⟩ => by rw [h] at hs; cases hs⟩

/-- There are such: three digests and five MACs. -/
example : (gost_operation .digest).length = 3 ∧ (gost_operation .mac).length = 5 ∧ (gost_operation .cipher).length = 17 := by decide

/-- **C76.** What is found for them is their own functions followed by whatever the memory after the table holds, up to an entry with
number 0; what is required is there in any case. -/
theorem C76_digests_and_macs_found (op : Op) (ho : op = .digest ∨ op = .mac) (t rest : List Fn) (ht : t ∈ gost_operation op) :
    Spec.scan (t ++ rest) = (Spec.scan rest).map (t ++ ·) ∧ ∀ f ∈ Spec.required op, f ∈ t := by
  rcases ho with rfl | rfl
  · obtain ⟨_, _, rfl⟩ := List.mem_map.1 ht
    exact ⟨scan_append (by decide), by decide⟩
  · obtain ⟨_, _, rfl⟩ := List.mem_map.1 ht
    exact ⟨scan_append (by decide), by decide⟩

/-- For example, with a table of three entries and its end behind them. -/
example : Spec.scan (digest_functions ++ [.init, .stop]) = some (digest_functions ++ [.init]) := by decide

end Gost.Life
