import Verif.Model.EngLife
import Verif.Props.ProvLife

/-!
# C81: loading and unloading the engine
-/
namespace Gost.Life

/-! ## Specification -/

namespace Spec

/-- The engine was there and has been freed, or a load failed, at a step: from then on libcrypto's tables may have an ENGINE that has
been freed. -/
def goesAway (ok : Nat → Bool) (s : EState) (e : EEv) : Bool :=
  (s.eng.isSome && (eStep ok s e).eng.isNone) || (decide (e = .load) && (eStep ok s e).eng.isNone)

/-- What a careful program does: names are looked up only while the engine is loaded, and the choice of the engine is left to libcrypto
only if the engine has not gone away and no load has failed before. -/
def Careful (ok : Nat → Bool) : Bool → EState → List EEv → Prop
  | _, _, [] => True
  | gone, s, e :: r =>
    (match e with
      | .lookup _ => s.eng ≠ none
      | .openWith _ => s.eng ≠ none
      | .openDefault _ => s.eng ≠ none ∧ gone = false
      | _ => True) ∧
    Careful ok (gone || goesAway ok s e) (eStep ok s e) r

/-- The number of loads that failed. -/
def failedEngineLoads (ok : Nat → Bool) : EState → List EEv → Nat
  | _, [] => 0
  | s, e :: r => (if e = .load ∧ (eStep ok s e).eng = none then 1 else 0) + failedEngineLoads ok (eStep ok s e) r

end Spec

/-! ## Names and caches -/

theorem initMeth_getD {ok : Nat → Bool} {m m1 : Mem} {l l1 : List (Option Ptr)} {i : Nat} {o : Option Ptr} (hi : i < l.length)
    (h : initMeth ok m l i = (o, m1, l1)) : l1.getD i none = o ∧ ∀ j p, l.getD j none = some p → l1.getD j none = some p := by
  unfold initMeth at h
  cases hg : l.getD i none with
  | some p =>
    rw [hg] at h
    cases h
    exact ⟨hg, fun _ _ hx => hx⟩
  | none =>
    rw [hg] at h
    cases h
    refine ⟨?_, fun j p hj => ?_⟩
    · rw [List.getD_eq_getElem?_getD, List.getElem?_set, if_pos rfl, if_pos hi]; rfl
    · by_cases hij : i = j
      · subst hij; rw [hg] at hj; cases hj
      · rw [List.getD_eq_getElem?_getD, List.getElem?_set, if_neg hij, ← List.getD_eq_getElem?_getD]; exact hj

theorem getName_cons (k : AlgName) (p : Ptr) (r : List (AlgName × Ptr)) (n : AlgName) :
    getName ((k, p) :: r) n = if k = n then some p else getName r n := rfl

/-- What `addNames` does to the table. -/
theorem addNames_at {ok : Nat → Bool} {m m1 : Mem} {names n1 : List (AlgName × Ptr)} {d : Bool} {i : Nat} {p : Ptr} {b : Bool}
    (h : addNames ok m names d i p = (m1, n1, b)) {f : Ptr → Nat} (ha : At m f) :
    At m1 f ∧ (∀ n q, getName n1 n = some q → getName names n = some q ∨ (n.digest = d ∧ n.pos = i ∧ q = p)) ∧
      (∀ n q, getName names n = some q → ∃ q', getName n1 n = some q') ∧
      (b = true → ∀ lg, getName n1 ⟨d, i, lg⟩ = some p) := by
  unfold addNames at h
  cases h1 : attempt ok m with
  | mk b1 m2 =>
  rw [h1] at h
  have a1 := ha.attempt h1
  cases b1 with
  | false =>
    cases h
    exact ⟨a1, fun n q hq => Or.inl hq, fun n q hq => ⟨q, hq⟩, fun hb => Bool.noConfusion hb⟩
  | true =>
    simp only at h
    cases h2 : attempt ok m2 with
    | mk b2 m3 =>
    rw [h2] at h
    have a2 := a1.attempt h2
    cases b2 with
    | false =>
      cases h
      refine ⟨a2, fun n q hq => ?_, fun n q hq => ?_, fun hb => Bool.noConfusion hb⟩
      · rw [getName_cons] at hq
        split at hq
        · rename_i he
          subst he
          exact Or.inr ⟨rfl, rfl, (Option.some.inj hq).symm⟩
        · exact Or.inl hq
      · rw [getName_cons]
        split
        · exact ⟨_, rfl⟩
        · exact ⟨q, hq⟩
    | true =>
      cases h
      refine ⟨a2, fun n q hq => ?_, fun n q hq => ?_, fun _ lg => ?_⟩
      · rw [getName_cons, getName_cons] at hq
        split at hq
        · rename_i he
          subst he
          exact Or.inr ⟨rfl, rfl, (Option.some.inj hq).symm⟩
        · split at hq
          · rename_i he
            subst he
            exact Or.inr ⟨rfl, rfl, (Option.some.inj hq).symm⟩
          · exact Or.inl hq
      · rw [getName_cons, getName_cons]
        split
        · exact ⟨_, rfl⟩
        · split
          · exact ⟨_, rfl⟩
          · exact ⟨q, hq⟩
      · rw [getName_cons, getName_cons]
        cases lg
        · rw [if_neg (by simp), if_pos rfl]
        · rw [if_pos rfl]

theorem addMeths_at {ok : Nat → Bool} {d : Bool} : ∀ {is : List Nat} {m m1 : Mem} {c c1 : List (Option Ptr)}
    {names n1 : List (AlgName × Ptr)} {b : BindEnd} {f : Ptr → Nat}, (∀ i ∈ is, i < c.length) → At m (fun q => f q + cn c q) →
    addMeths ok d m c names is = (m1, c1, n1, b) →
    At m1 (fun q => f q + cn c1 q) ∧ c1.length = c.length ∧ (∀ j p, c.getD j none = some p → c1.getD j none = some p) ∧
      (∀ n q, getName n1 n = some q → getName names n = some q ∨ (n.digest = d ∧ n.pos ∈ is ∧ c1.getD n.pos none = some q)) ∧
      (∀ n q, getName names n = some q → ∃ q', getName n1 n = some q') ∧
      (b = .bound → ∀ i ∈ is, ∀ lg, ∃ q, getName n1 ⟨d, i, lg⟩ = some q ∧ c1.getD i none = some q) ∧
      (d = false → b ≠ .crashed) := by
  intro is
  induction is with
  | nil =>
    intro m m1 c c1 names n1 b f _ ha h
    cases h
    exact ⟨ha, rfl, fun _ _ hx => hx, fun _ _ hx => Or.inl hx, fun _ q hx => ⟨q, hx⟩, (fun _ i hi => by cases hi), fun _ => by simp⟩
  | cons i r ih =>
    intro m m1 c c1 names n1 b f hlt ha h
    rw [addMeths] at h
    have hi : i < c.length := hlt i List.mem_cons_self
    obtain ⟨k1, k2, _, _⟩ := initMeth_at (ok := ok) hi ha
    cases hm : initMeth ok m c i with
    | mk o rest =>
    obtain ⟨m2, c2⟩ := rest
    obtain ⟨g1, g2⟩ := initMeth_getD hi hm
    rw [hm] at h k1 k2
    dsimp only at k1 k2
    cases o with
    | none =>
      cases h
      refine ⟨k1, k2, g2, fun _ _ hx => Or.inl hx, fun _ q hx => ⟨q, hx⟩, fun hb => ?_, fun hd => ?_⟩
      · exfalso
        cases d <;> simp at hb
      · subst hd; simp
    | some p =>
      simp only at h
      cases hn : addNames ok m2 names d i p with
      | mk m3 rest =>
      obtain ⟨n3, b3⟩ := rest
      rw [hn] at h
      obtain ⟨a1, a2, a3, a4⟩ := addNames_at hn k1
      cases b3 with
      | false =>
        cases h
        refine ⟨a1, k2, g2, fun n q hq => ?_, a3, fun hb => (by cases hb), fun _ => by simp⟩
        rcases a2 n q hq with hx | ⟨h1, h2, h3⟩
        · exact Or.inl hx
        · exact Or.inr ⟨h1, h2 ▸ List.mem_cons_self, by rw [h2, h3]; exact g1⟩
      | true =>
        simp only at h
        obtain ⟨r1, r2, r3, r4, r5, r6, r7⟩ := ih (f := f) (fun j hj => by rw [k2]; exact hlt j (List.mem_cons_of_mem _ hj)) a1 h
        refine ⟨r1, r2.trans k2, fun j q hq => r3 j q (g2 j q hq), fun n q hq => ?_, fun n q hq => ?_, fun hb j hj lg => ?_, r7⟩
        · rcases r4 n q hq with hx | ⟨h1, h2, h3⟩
          · rcases a2 n q hx with hx | ⟨h1, h2, h3⟩
            · exact Or.inl hx
            · exact Or.inr ⟨h1, h2 ▸ List.mem_cons_self, by rw [h2, h3]; exact r3 _ _ g1⟩
          · exact Or.inr ⟨h1, List.mem_cons_of_mem _ h2, h3⟩
        · obtain ⟨q', hq'⟩ := a3 n q hq
          exact r5 n q' hq'
        · by_cases hjr : j ∈ r
          · exact r6 hb j hjr lg
          · have hji : j = i := by
              rcases List.mem_cons.1 hj with hx | hx
              · exact hx
              · exact absurd hx hjr
            subst hji
            have hhead := a4 rfl lg
            obtain ⟨q', hq'⟩ := r5 _ _ hhead
            refine ⟨q', hq', ?_⟩
            rcases r4 _ _ hq' with hx | ⟨_, h2, _⟩
            · rw [hhead] at hx
              cases hx
              exact r3 _ _ g1
            · exact absurd h2 hjr

/-- The method in the caches for a name. -/
def cachedAt (p : PState) (n : AlgName) : Option Ptr := if n.digest then p.digests.getD n.pos none else p.ciphers.getD n.pos none

theorem getD_mem {l : List (Option Ptr)} {i : Nat} {q : Ptr} (h : l.getD i none = some q) : some q ∈ l := by
  rw [List.getD_eq_getElem?_getD] at h
  cases hx : l[i]? with
  | none => rw [hx] at h; cases h
  | some o =>
    rw [hx] at h
    have : o = some q := h
    exact this ▸ List.mem_of_getElem? hx

theorem cachedAt_cached {p : PState} {n : AlgName} {q : Ptr} (h : cachedAt p n = some q) : Cached p q := by
  unfold cachedAt at h
  split at h
  · exact Or.inr (getD_mem h)
  · exact Or.inl (getD_mem h)

theorem bindNames_at {ok : Nat → Bool} {s s1 : PState} {names n1 : List (AlgName × Ptr)} {b : BindEnd} {f : Ptr → Nat}
    (hc : s.ciphers.length = 20) (hd : s.digests.length = 8) (h : At s.mem (fun q => f q + varsAt s q))
    (hv : ∀ n q, getName names n = some q → n.valid = true)
    (hb : bindNames ok s names = (s1, n1, b)) :
    At s1.mem (fun q => f q + varsAt s1 q) ∧ s1.meths = s.meths ∧ s1.asn1 = s.asn1 ∧ s1.ciphers.length = 20 ∧ s1.digests.length = 8 ∧
      (∀ n q, getName n1 n = some q → n.valid = true) ∧
      (b = .bound → ∀ n : AlgName, n.valid = true → ∃ q, getName n1 n = some q ∧ cachedAt s1 n = some q) := by
  unfold bindNames at hb
  cases h1 : addMeths ok false s.mem s.ciphers names (List.range 20) with
  | mk m1 rest =>
  obtain ⟨c, n2, b1⟩ := rest
  rw [h1] at hb
  obtain ⟨r1, r2, r3, r4, r5, r6, r7⟩ := addMeths_at (f := fun q => f q + cm s.meths q + cn s.digests q)
    (fun i hi => by rw [hc]; exact List.mem_range.1 hi) (h.congr fun q => by unfold varsAt; omega) h1
  have hv2 : ∀ n q, getName n2 n = some q → n.valid = true := fun n q hq => by
    rcases r4 n q hq with hx | ⟨e1, e2, _⟩
    · exact hv n q hx
    · unfold AlgName.valid
      rw [e1, if_neg (by decide)]
      exact decide_eq_true (List.mem_range.1 e2)
  have fail : b1 ≠ .bound → (s1, n1, b) = (({ s with mem := m1, ciphers := c } : PState), n2, b1) →
      At s1.mem (fun q => f q + varsAt s1 q) ∧ s1.meths = s.meths ∧ s1.asn1 = s.asn1 ∧ s1.ciphers.length = 20 ∧ s1.digests.length = 8 ∧
      (∀ n q, getName n1 n = some q → n.valid = true) ∧
      (b = .bound → ∀ n : AlgName, n.valid = true → ∃ q, getName n1 n = some q ∧ cachedAt s1 n = some q) := by
    intro hne he
    cases he
    exact ⟨r1.congr fun q => by unfold varsAt; dsimp only; omega, rfl, rfl, r2.trans hc, hd, hv2, fun hx => absurd hx hne⟩
  cases b1 with
  | failed => exact fail (by simp) hb.symm
  | crashed => exact fail (by simp) hb.symm
  | bound =>
    simp only at hb
    cases h2 : addMeths ok true m1 s.digests n2 (List.range 8) with
    | mk m2 rest =>
    obtain ⟨d, n3, b2⟩ := rest
    rw [h2] at hb
    obtain ⟨t1, t2, t3, t4, t5, t6, t7⟩ := addMeths_at (f := fun q => f q + cm s.meths q + cn c q)
      (fun i hi => by rw [hd]; exact List.mem_range.1 hi) (r1.congr fun q => by omega) h2
    cases hb
    refine ⟨t1.congr fun q => by unfold varsAt; dsimp only; omega, rfl, rfl, r2.trans hc, t2.trans hd, fun n q hq => ?_,
      fun hx n hn => ?_⟩
    · rcases t4 n q hq with hx | ⟨e1, e2, _⟩
      · exact hv2 n q hx
      · unfold AlgName.valid
        rw [e1, if_pos rfl]
        exact decide_eq_true (List.mem_range.1 e2)
    · obtain ⟨dg, i, lg⟩ := n
      unfold AlgName.valid at hn
      cases dg with
      | true =>
        dsimp only at hn
        rw [if_pos rfl] at hn
        obtain ⟨q, w1, w2⟩ := t6 hx i (List.mem_range.2 (of_decide_eq_true hn)) lg
        exact ⟨q, w1, w2⟩
      | false =>
        dsimp only at hn
        rw [if_neg (by decide)] at hn
        obtain ⟨q, w1, w2⟩ := r6 rfl i (List.mem_range.2 (of_decide_eq_true hn)) lg
        obtain ⟨q', w3⟩ := t5 _ _ w1
        refine ⟨q', w3, ?_⟩
        rcases t4 _ _ w3 with hx | ⟨e1, _, _⟩
        · rw [w1] at hx
          cases hx
          exact w2
        · exact Bool.noConfusion e1

/-! ## The invariant -/

/-- The ENGINE and the OIDs. -/
def engAt (s : EState) (q : Ptr) : Nat :=
  match s.eng with
  | none => 0
  | some e => c1 e q + cn s.p.asn1 q

/-- The invariant of a process that has not crashed, with the objects given up; `gone` says whether an ENGINE in the piles may have been
freed. -/
structure EInv (gone : Bool) (s : EState) (lk : List Ptr) : Prop where
  bal : At s.p.mem (fun q => engAt s q + varsAt s.p q + lk.count q)
  mlen : s.p.meths.length = 10
  alen : s.p.asn1.length = 2
  clen : s.p.ciphers.length = 20
  dlen : s.p.digests.length = 8
  idle : s.eng = none → (∀ x ∈ s.p.meths, x = (none, none)) ∧ Empty s.p.ciphers ∧ Empty s.p.digests ∧ s.users = [] ∧ s.functs = [] ∧
    s.listed = false
  act : s.eng ≠ none → (s.p.meths.getD 0 (none, none)).1.isSome = true ∧
    ∀ n : AlgName, n.valid = true → ∃ q, getName s.names n = some q ∧ cachedAt s.p n = some q
  valid : ∀ n q, getName s.names n = some q → n.valid = true
  users : ∀ u ∈ s.users, Cached s.p u
  piles : gone = false → s.piles = s.eng.toList
  going : s.crashed = false

/-- The states of a history: a process that goes on, or one that crashed without having used freed memory. -/
def EOk (gone : Bool) (s : EState) (lk : List Ptr) : Prop :=
  EInv gone s lk ∨ (s.crashed = true ∧ s.p.mem.fault = false)

theorem einv_init : EInv false eInit [] where
  bal := inv_init.bal.congr fun q => by
    unfold owned
    rfl
  mlen := rfl
  alen := rfl
  clen := rfl
  dlen := rfl
  idle := fun _ => ⟨(inv_init.idle rfl).1, (inv_init.idle rfl).2.1, (inv_init.idle rfl).2.2, rfl, rfl, rfl⟩
  act := fun h => absurd rfl h
  valid := fun _ _ h => by cases h
  users := fun _ h => by cases h
  piles := fun _ => rfl
  going := rfl

theorem meths_zero {l : List (Option Ptr × Option Ptr)} (h : ∀ x ∈ l, x = (none, none)) (q : Ptr) : cm l q = 0 := by
  have : l = l.map fun _ => ((none : Option Ptr), (none : Option Ptr)) := by
    conv => lhs; rw [← List.map_id l]
    exact List.map_congr_left fun x hx => h x hx
  rw [this]
  exact cm_none _ q

theorem varsAt_zero {p : PState} (h1 : ∀ x ∈ p.meths, x = (none, none)) (h2 : Empty p.ciphers) (h3 : Empty p.digests) (q : Ptr) :
    varsAt p q = 0 := by
  unfold varsAt
  rw [meths_zero h1, h2.cn, h3.cn]

theorem getD_none_pairs {l : List (Option Ptr × Option Ptr)} (h : ∀ x ∈ l, x = (none, none)) (i : Nat) :
    (l.getD i (none, none)).1.isSome = false := by
  rw [List.getD_eq_getElem?_getD]
  cases hx : l[i]? with
  | none => rfl
  | some o => rw [h o (List.mem_of_getElem? hx)]; rfl

/-- A successful `populate` has made the first method. -/
theorem populate_first {ok : Nat → Bool} {s s1 : PState} {bound : Bool} (hm : s.meths.length = 10)
    (hp : populate ok s = (s1, bound, true)) : bound = true ∧ (s1.meths.getD 0 (none, none)).1.isSome = true := by
  unfold populate at hp
  cases hc : createNIDs ok s.mem s.asn1 with
  | mk m1 rest =>
  obtain ⟨a, b1⟩ := rest
  rw [hc] at hp
  cases b1 with
  | false => cases hp
  | true =>
    simp only at hp
    cases hl : s.meths with
    | nil => rw [hl] at hm; cases hm
    | cons x r =>
      rw [hl] at hp
      have hz : skipped.zip (x :: r) = (false, x) :: [false, false, false, false, false, false, false, true, false].zip r := rfl
      rw [hz] at hp
      generalize [false, false, false, false, false, false, false, true, false].zip r = t at hp
      rw [registerMeths] at hp
      cases ha : alloc ok m1 with
      | mk o m2 =>
      rw [ha] at hp
      cases o with
      | none => cases hp
      | some a' =>
        simp only at hp
        cases hb : alloc ok m2 with
        | mk o' m3 =>
        rw [hb] at hp
        cases o' with
        | none => cases hp
        | some p' =>
          simp only at hp
          have hs := congrArg (fun x : PState × Bool × Bool => x.1) hp
          have hb := congrArg (fun x : PState × Bool × Bool => x.2.1) hp
          dsimp only at hs hb
          exact ⟨hb.symm, by rw [← hs]; rfl⟩

/-- The state after an ENGINE has been freed. -/
theorem freed_inv {s : EState} {p6 : PState} {e : Ptr} {lk : List Ptr} {names : List (AlgName × Ptr)} {piles : List Ptr}
    (hb : At p6.mem (fun q => lk.count q + c1 e q + varsAt p6 q + cn p6.asn1 q)) (hm : p6.meths.length = 10) (ha : p6.asn1.length = 2)
    (hc : p6.ciphers.length = 20) (hd : p6.digests.length = 8) (hv : ∀ n q, getName names n = some q → n.valid = true)
    (hu : s.users = []) (hf : s.functs = []) (hl : s.listed = false) (hg : s.crashed = false) :
    EInv true { s with p := engineFree p6 e true, names := names, piles := piles, eng := none } lk := by
  obtain ⟨w1, w2, w3, w4, w5, w6, w7, w8, w9, w10, w11⟩ := engineFree_at hb
  refine ⟨w1.congr fun q => ?_, w7.trans hm, w8 ▸ ha, w5.trans hc, w6.trans hd, fun _ => ⟨w4, w2, w3, hu, hf, hl⟩,
    fun hx => absurd rfl hx, hv, fun u hx => ?_, fun hx => Bool.noConfusion hx, hg⟩
  · show _ = 0 + varsAt (engineFree p6 e true) q + lk.count q
    rw [varsAt_zero w4 w2 w3]; omega
  · dsimp only at hx
    rw [hu] at hx
    cases hx

theorem EInv.gone {s : EState} {gone : Bool} {lk : List Ptr} (h : EInv gone s lk) : EInv true s lk :=
  ⟨h.bal, h.mlen, h.alen, h.clen, h.dlen, h.idle, h.act, h.valid, h.users, fun hx => Bool.noConfusion hx, h.going⟩

/-- Other memory, the same objects. -/
theorem EInv.mem {s : EState} {gone : Bool} {lk : List Ptr} (h : EInv gone s lk) {m : Mem}
    (hm : At m (fun q => engAt s q + varsAt s.p q + lk.count q)) : EInv gone { s with p := { s.p with mem := m } } lk :=
  ⟨hm, h.mlen, h.alen, h.clen, h.dlen, h.idle, h.act, h.valid, h.users, h.piles, h.going⟩

theorem load_inv {ok : Nat → Bool} {s : EState} {gone : Bool} {lk : List Ptr} (h : EInv gone s lk) :
    ∃ lk', EOk (gone || (engineLoad ok s).eng.isNone) (engineLoad ok s) lk' ∧
      lk'.length ≤ lk.length + if (engineLoad ok s).eng = none then 1 else 0 := by
  have hdef : engineLoad ok s = engineLoad ok s := rfl
  conv at hdef => rhs; unfold engineLoad
  have fin : ∀ (r : EState) (lk' : List Ptr) , engineLoad ok s = r → EInv (gone || r.eng.isNone) r lk' →
      lk'.length ≤ lk.length + (if r.eng = none then 1 else 0) →
      ∃ lk', EOk (gone || (engineLoad ok s).eng.isNone) (engineLoad ok s) lk' ∧
        lk'.length ≤ lk.length + if (engineLoad ok s).eng = none then 1 else 0 := by
    intro r lk' he hi hl
    exact ⟨lk', Or.inl (he ▸ hi), he ▸ hl⟩
  have same : ∀ m, At m (fun q => engAt s q + varsAt s.p q + lk.count q) →
      engineLoad ok s = { s with p := { s.p with mem := m } } →
      ∃ lk', EOk (gone || (engineLoad ok s).eng.isNone) (engineLoad ok s) lk' ∧
        lk'.length ≤ lk.length + if (engineLoad ok s).eng = none then 1 else 0 := by
    intro m hm he
    refine fin _ lk he ?_ (by omega)
    dsimp only
    have h1 := h.mem hm
    cases hg : s.eng.isNone with
    | false => rw [Bool.or_false]; exact h1
    | true => rw [Bool.or_true]; exact h1.gone
  cases a1 : alloc ok s.p.mem with
  | mk o1 m1 =>
  have h1 := h.bal.alloc a1
  rw [a1] at hdef
  cases o1 with
  | none => exact same m1 (h1.congr fun q => by rw [cn_cons_none, cn_nil]; rfl) hdef
  | some e =>
    simp only at hdef
    by_cases hmeth : (s.p.meths.getD 0 (none, none)).1.isSome = true
    · rw [if_pos hmeth] at hdef
      refine same (release m1 e) (At.release (h1.congr fun q => by rw [cn_cons_some, cn_nil]; omega)) ?_
      rw [hdef]
      rfl
    · rw [if_neg hmeth] at hdef
      have heng : s.eng = none := by
        cases hx : s.eng with
        | none => rfl
        | some x => exact absurd (h.act (by rw [hx]; simp)).1 hmeth
      obtain ⟨i1, i2, i3, i4, i5, i6⟩ := h.idle heng
      cases hp : populate ok { s.p with mem := m1 } with
      | mk p2 rest =>
      obtain ⟨bound, b⟩ := rest
      rw [hp] at hdef
      obtain ⟨⟨f1, f2, f3, f4, f5, f6, f7⟩, g1, g2⟩ := populate_at (s := { s.p with mem := m1 })
        (f := fun q => lk.count q + c1 e q) h.mlen h.alen (h1.congr fun q => by
          have : engAt s q = 0 := by unfold engAt; rw [heng]
          rw [cn_cons_some, cn_nil, this]
          show _ = _ + varsAt s.p q
          omega) hp
      dsimp only at f2 f3
      cases b with
      | false =>
        simp only at hdef
        cases bound with
        | true =>
          obtain ⟨lk1, q1, q2⟩ := g1 rfl
          have q1 := q1.congr (g := fun q => lk.count q + c1 e q + varsAt p2 q + cn p2.asn1 q) fun q => by
            rw [q2 i1, List.count_nil]; omega
          have hi := freed_inv (s := s) (names := s.names) (piles := s.piles) q1 f6 f7 (f2 ▸ h.clen) (f3 ▸ h.dlen) h.valid i4 i5 i6 h.going
          refine fin _ lk hdef ?_ (by omega)
          dsimp only
          rw [heng, Option.isNone_none, Bool.or_true]
          exact hi
        | false =>
          obtain ⟨_, r1, lk1, r2, r3⟩ := g2 rfl
          refine fin _ (lk ++ lk1) hdef ?_ ?_
          · show EInv (gone || s.eng.isNone) { s with p := { p2 with mem := release p2.mem e } } (lk ++ lk1)
            rw [heng, Option.isNone_none, Bool.or_true]
            refine ⟨At.release (r3.congr fun q => ?_), f6, f7, f2 ▸ h.clen, f3 ▸ h.dlen,
              fun _ => ⟨r1 ▸ i1, f2 ▸ i2, f3 ▸ i3, i4, i5, i6⟩, fun hx => absurd rfl hx, h.valid, fun u hu => ?_,
              fun hx => Bool.noConfusion hx, h.going⟩
            · rw [List.count_append]
              unfold engAt
              unfold varsAt
              dsimp only
              omega
            · dsimp only at hu
              rw [i4] at hu
              cases hu
          · show (lk ++ lk1).length ≤ lk.length + if s.eng = none then 1 else 0
            rw [if_pos heng, List.length_append]
            omega
      | true =>
        obtain ⟨hbound, hfirst⟩ := populate_first (s := { s.p with mem := m1 }) h.mlen hp
        subst hbound
        simp only at hdef
        obtain ⟨lk1, q1, q2⟩ := g1 rfl
        have q1 := q1.congr (g := fun q => lk.count q + c1 e q + cn p2.asn1 q + varsAt p2 q) fun q => by
          rw [q2 i1, List.count_nil]; omega
        have heq : ∀ (P : PState) (N : List (AlgName × Ptr)) (Q : List Ptr),
            ({ s with p := P, names := N, piles := Q } : EState) = { s with p := P, names := N, piles := Q, eng := none } := fun _ _ _ => by
          rw [← heng]
        have hgone : ∀ r : EState, r.eng = none → (gone || r.eng.isNone) = true := fun r hr => by
          rw [hr, Option.isNone_none, Bool.or_true]
        cases a3 : attempt ok p2.mem with
        | mk b3 m3 =>
        rw [a3] at hdef
        have q3 := q1.attempt a3
        cases b3 with
        | false =>
          simp only at hdef
          have hi := freed_inv (s := s) (p6 := { p2 with mem := m3 }) (names := s.names) (piles := s.piles ++ [e]) (lk := lk) (e := e)
            (q3.congr fun q => by unfold varsAt; dsimp only; omega) f6 f7 (f2 ▸ h.clen) (f3 ▸ h.dlen) h.valid i4 i5 i6 h.going
          refine fin _ lk hdef ?_ (by omega)
          rw [hgone _ (by exact heng)]
          exact (heq (engineFree { p2 with mem := m3 } e true) s.names (s.piles ++ [e])) ▸ hi
        | true =>
          simp only at hdef
          cases hb : bindNames ok { p2 with mem := m3 } s.names with
          | mk p4 rest =>
          obtain ⟨n4, b4⟩ := rest
          rw [hb] at hdef
          obtain ⟨t1, t2, t3, t4, t5, t6, t7⟩ := bindNames_at (s := { p2 with mem := m3 })
            (f := fun q => lk.count q + c1 e q + cn p2.asn1 q) (f2 ▸ h.clen) (f3 ▸ h.dlen)
            (q3.congr fun q => by unfold varsAt; dsimp only) h.valid hb
          dsimp only at t2 t3
          cases b4 with
          | crashed =>
            simp only at hdef
            refine ⟨lk, Or.inr ?_, by omega⟩
            rw [hdef]
            exact ⟨rfl, t1.1⟩
          | failed =>
            simp only at hdef
            have hi := freed_inv (s := s) (p6 := p4) (names := n4) (piles := s.piles ++ [e]) (lk := lk) (e := e)
              (t1.congr fun q => by rw [t3]; omega) (t2 ▸ f6) (t3 ▸ f7) t4 t5 t6 i4 i5 i6 h.going
            refine fin _ lk hdef ?_ (by omega)
            rw [hgone _ (by exact heng)]
            exact (heq (engineFree p4 e true) n4 (s.piles ++ [e])) ▸ hi
          | bound =>
            simp only at hdef
            refine fin _ lk hdef ?_ (by omega)
            refine ⟨t1.congr fun q => ?_, t2 ▸ f6, t3 ▸ f7, t4, t5, (fun hx => by cases hx), fun _ => ⟨t2 ▸ hfirst, t7 rfl⟩, t6,
              fun u hu => ?_, fun hx => ?_, h.going⟩
            · show _ = c1 e q + cn p4.asn1 q + varsAt p4 q + lk.count q
              rw [t3]; omega
            · dsimp only at hu
              rw [i4] at hu
              cases hu
            · dsimp only at hx ⊢
              rw [Option.isNone_some, Bool.or_false] at hx
              rw [h.piles hx, heng]
              rfl

/-! ## The other steps -/

theorem eng_pos {s : EState} {e : Ptr} (h : s.eng = some e) : 0 < engAt s e := by
  unfold engAt
  rw [h]
  simp only [c1, if_true]
  omega

theorem drop_inv {s : EState} {gone : Bool} {lk : List Ptr} (h : EInv gone s lk) :
    EInv (gone || (s.eng.isSome && (dropEngine s).eng.isNone)) (dropEngine s) lk := by
  unfold dropEngine
  cases he : s.eng with
  | none =>
    dsimp only
    rw [Option.isSome_none, Bool.false_and, Bool.or_false]
    exact h
  | some e =>
    dsimp only
    by_cases hc : (!s.listed && s.functs.isEmpty && s.users.isEmpty) = true
    · rw [if_pos hc]
      rw [Bool.and_eq_true, Bool.and_eq_true, Bool.not_eq_true', List.isEmpty_iff, List.isEmpty_iff] at hc
      dsimp only
      rw [Option.isSome_some, Option.isNone_none, Bool.true_and, Bool.or_true]
      refine freed_inv (s := s) (names := s.names) (piles := s.piles) (h.bal.congr fun q => ?_) h.mlen h.alen h.clen h.dlen h.valid
        hc.2 hc.1.2 hc.1.1 h.going
      have : engAt s q = c1 e q + cn s.p.asn1 q := by unfold engAt; rw [he]
      rw [this]; omega
    · rw [if_neg hc, he, Option.isNone_some, Bool.and_false, Bool.or_false]
      exact h

theorem read_same {s : EState} {gone : Bool} {lk : List Ptr} (h : EInv gone s lk) (he : s.eng ≠ none) (n : AlgName) : readName s n = s := by
  unfold readName
  cases hg : getName s.names n with
  | none => rfl
  | some q =>
    dsimp only
    obtain ⟨q', h1, h2⟩ := (h.act he).2 n (h.valid n q hg)
    rw [hg] at h1
    cases h1
    rw [h.bal.touch (by have := (cachedAt_cached h2).pos; omega)]

theorem algMeth_at {ok : Nat → Bool} {s s1 : PState} {n : AlgName} {o : Option Ptr} {f : Ptr → Nat} (hc : s.ciphers.length = 20)
    (hd : s.digests.length = 8) (hn : n.valid = true) (h : At s.mem (fun q => f q + varsAt s q))
    (hk : algMeth ok s n.digest n.pos = (o, s1)) :
    Frame s s1 ∧ At s1.mem (fun q => f q + varsAt s1 q) ∧ (∀ p, o = some p → Cached s1 p) ∧
      ∀ k q, cachedAt s k = some q → cachedAt s1 k = some q := by
  unfold algMeth at hk
  unfold AlgName.valid at hn
  cases hdg : n.digest with
  | true =>
    rw [hdg, if_pos rfl] at hk hn
    have hi : n.pos < s.digests.length := by rw [hd]; exact of_decide_eq_true hn
    obtain ⟨a1, a2, a3, a4⟩ := initMeth_at (ok := ok) (m := s.mem) (l := s.digests) hi
      (f := fun q => f q + cm s.meths q + cn s.ciphers q) (h.congr fun q => by unfold varsAt; omega)
    have g := initMeth_getD (ok := ok) (m := s.mem) hi (by rfl)
    cases hk
    refine ⟨⟨rfl, rfl, rfl, rfl, rfl, rfl, a2, fun p hp => ?_⟩, a1.congr fun q => by unfold varsAt; dsimp only; omega,
      fun p hp => Or.inr (a3 p hp), fun k q hq => ?_⟩
    · rcases hp with hp | hp
      · exact Or.inl hp
      · exact Or.inr (a4 _ hp (by simp))
    · unfold cachedAt at hq ⊢
      cases hkd : k.digest with
      | true => rw [hkd, if_pos rfl] at hq; rw [if_pos rfl]; exact g.2 _ _ hq
      | false => rw [hkd, if_neg (by decide)] at hq; rw [if_neg (by decide)]; exact hq
  | false =>
    rw [hdg, if_neg (by decide)] at hk hn
    have hi : n.pos < s.ciphers.length := by rw [hc]; exact of_decide_eq_true hn
    obtain ⟨a1, a2, a3, a4⟩ := initMeth_at (ok := ok) (m := s.mem) (l := s.ciphers) hi
      (f := fun q => f q + cm s.meths q + cn s.digests q) (h.congr fun q => by unfold varsAt; omega)
    have g := initMeth_getD (ok := ok) (m := s.mem) hi (by rfl)
    cases hk
    refine ⟨⟨rfl, rfl, rfl, rfl, rfl, a2, rfl, fun p hp => ?_⟩, a1.congr fun q => by unfold varsAt; dsimp only; omega,
      fun p hp => Or.inl (a3 p hp), fun k q hq => ?_⟩
    · rcases hp with hp | hp
      · exact Or.inl (a4 _ hp (by simp))
      · exact Or.inr hp
    · unfold cachedAt at hq ⊢
      cases hkd : k.digest with
      | true => rw [hkd, if_pos rfl] at hq; rw [if_pos rfl]; exact hq
      | false => rw [hkd, if_neg (by decide)] at hq; rw [if_neg (by decide)]; exact g.2 _ _ hq

theorem start_inv {ok : Nat → Bool} {s : EState} {gone : Bool} {lk : List Ptr} {e : Ptr} {n : AlgName} (h : EInv gone s lk)
    (he : s.eng = some e) (hn : n.valid = true) :
    EInv gone (startUser ok s e n) lk ∧ (startUser ok s e n).eng = s.eng := by
  unfold startUser
  dsimp only
  rw [h.bal.touch (by have := eng_pos he; omega)]
  have hs : ({ s.p with mem := s.p.mem } : PState) = s.p := rfl
  cases hk : algMeth ok s.p n.digest n.pos with
  | mk o p2 =>
  obtain ⟨fr, k1, k2, k3⟩ := algMeth_at (f := fun q => engAt s q + lk.count q) h.clen h.dlen hn (h.bal.congr fun q => by omega) hk
  have base : ∀ us : List Ptr, (∀ u ∈ us, Cached p2 u) → EInv gone { s with p := p2, users := us } lk := by
    intro us hus
    refine ⟨k1.congr fun q => ?_, by rw [fr.meths]; exact h.mlen, by rw [fr.asn1]; exact h.alen, fr.clen.trans h.clen,
      fr.dlen.trans h.dlen, (fun hx => absurd (he.symm.trans hx) (by simp)), fun _ => ?_, h.valid, hus, h.piles, h.going⟩
    · unfold engAt
      dsimp only
      rw [he, fr.asn1]
      dsimp only
      omega
    · obtain ⟨w1, w2⟩ := h.act (by rw [he]; simp)
      refine ⟨by rw [fr.meths]; exact w1, fun k hk' => ?_⟩
      obtain ⟨q, z1, z2⟩ := w2 k hk'
      exact ⟨q, z1, k3 k q z2⟩
  cases o with
  | none =>
    dsimp only
    exact ⟨base s.users fun u hu => fr.cached u (h.users u hu), by first | rfl | trivial⟩
  | some m =>
    dsimp only
    have ht : touch p2.mem m = p2.mem := k1.touch (by have := (k2 m rfl).pos; omega)
    rw [ht]
    refine ⟨base (m :: s.users) fun u hu => ?_, by first | rfl | trivial⟩
    rcases List.mem_cons.1 hu with rfl | hu
    · exact k2 _ rfl
    · exact fr.cached u (h.users u hu)

/-- A careful step. -/
theorem estep_inv {ok : Nat → Bool} {s : EState} {gone : Bool} {lk : List Ptr} (ev : EEv) (h : EOk gone s lk)
    (hc : match ev with
      | .lookup _ => s.eng ≠ none
      | .openWith _ => s.eng ≠ none
      | .openDefault _ => s.eng ≠ none ∧ gone = false
      | _ => True) :
    ∃ lk', EOk (gone || Spec.goesAway ok s ev) (eStep ok s ev) lk' ∧
      lk'.length ≤ lk.length + if ev = .load ∧ (eStep ok s ev).eng = none then 1 else 0 := by
  rcases h with h | ⟨hcr, hf⟩
  case inr =>
    refine ⟨lk, Or.inr ?_, by omega⟩
    have : eStep ok s ev = s := by unfold eStep; rw [if_pos hcr]
    rw [this]
    exact ⟨hcr, hf⟩
  have hgo : ¬ s.crashed = true := by rw [h.going]; decide
  have keep : ∀ r : EState, eStep ok s ev = r → r.eng = s.eng → ev ≠ .load → EInv gone r lk →
      ∃ lk', EOk (gone || Spec.goesAway ok s ev) (eStep ok s ev) lk' ∧
        lk'.length ≤ lk.length + if ev = .load ∧ (eStep ok s ev).eng = none then 1 else 0 := by
    intro r hr hre hne hi
    refine ⟨lk, Or.inl ?_, by omega⟩
    have : Spec.goesAway ok s ev = false := by
      unfold Spec.goesAway
      rw [hr, hre, decide_eq_false hne]
      cases s.eng <;> rfl
    rw [this, Bool.or_false, hr]
    exact hi
  have same : eStep ok s ev = s → ev ≠ .load →
      ∃ lk', EOk (gone || Spec.goesAway ok s ev) (eStep ok s ev) lk' ∧
        lk'.length ≤ lk.length + if ev = .load ∧ (eStep ok s ev).eng = none then 1 else 0 :=
    fun hr hne => keep s hr rfl hne h
  cases ev with
  | load =>
    obtain ⟨lk', h1, h2⟩ := load_inv (ok := ok) h
    have hs : eStep ok s .load = engineLoad ok s := by unfold eStep; rw [if_neg hgo]
    refine ⟨lk', ?_, ?_⟩
    · have hg : Spec.goesAway ok s .load = (engineLoad ok s).eng.isNone := by
        unfold Spec.goesAway
        rw [hs]
        cases s.eng.isSome <;> simp
      rw [hs, hg]
      exact h1
    · rw [hs]
      by_cases hx : (engineLoad ok s).eng = none
      · rw [if_pos hx] at h2; rw [if_pos ⟨rfl, hx⟩]; exact h2
      · rw [if_neg hx] at h2; omega
  | remove =>
    have hs : eStep ok s .remove = dropEngine { s with listed := false } := by unfold eStep; rw [if_neg hgo]
    have h1 : EInv gone { s with listed := false } lk :=
      ⟨h.bal, h.mlen, h.alen, h.clen, h.dlen, fun hx => by
        obtain ⟨a, b, c, d, e, _⟩ := h.idle hx
        exact ⟨a, b, c, d, e, rfl⟩, h.act, h.valid, h.users, h.piles, h.going⟩
    refine ⟨lk, Or.inl ?_, by omega⟩
    have := drop_inv h1
    have hg : Spec.goesAway ok s .remove = (s.eng.isSome && (dropEngine { s with listed := false }).eng.isNone) := by
      unfold Spec.goesAway
      rw [hs]
      simp
    rw [hg, hs]
    exact this
  | lookup n =>
    refine same ?_ (by simp)
    unfold eStep
    rw [if_neg hgo]
    exact read_same h hc n
  | openWith n =>
    have hs : eStep ok s (.openWith n) = match getName s.names n, s.eng with
      | some _, some e => if s.listed then startUser ok s e n else s
      | _, _ => s := by
      unfold eStep
      rw [if_neg hgo]
      dsimp only
      rw [read_same h hc n]
      rfl
    cases hg : getName s.names n with
    | none => rw [hg] at hs; exact same hs (by simp)
    | some q =>
      cases he : s.eng with
      | none => exact absurd he hc
      | some e =>
        rw [hg, he] at hs
        dsimp only at hs
        by_cases hl : s.listed = true
        · rw [if_pos hl] at hs
          obtain ⟨k1, k2⟩ := start_inv (ok := ok) h he (h.valid n q hg)
          exact keep _ hs k2 (by simp) k1
        · rw [if_neg hl] at hs
          exact same hs (by simp)
  | openDefault n =>
    cases hg : getName s.names n with
    | none =>
      refine same ?_ (by simp)
      unfold eStep
      rw [if_neg hgo]
      dsimp only
      rw [hg]
    | some q =>
      cases he : s.eng with
      | none => exact absurd he hc.1
      | some e =>
      have hp : s.piles = [e] := by rw [h.piles hc.2, he]; rfl
      by_cases hm : (n.digest, n.pos) ∈ s.functs
      · have hs : eStep ok s (.openDefault n) = startUser ok s e n := by
          unfold eStep
          rw [if_neg hgo]
          dsimp only
          rw [hg]
          dsimp only
          rw [read_same h hc.1 n, hp]
          dsimp only
          rw [if_pos hm, he]
        obtain ⟨k1, k2⟩ := start_inv (ok := ok) h he (h.valid n q hg)
        exact keep _ hs k2 (by simp) k1
      · have hs : eStep ok s (.openDefault n) = startUser ok { s with functs := (n.digest, n.pos) :: s.functs } e n := by
          unfold eStep
          rw [if_neg hgo]
          dsimp only
          rw [hg]
          dsimp only
          rw [read_same h hc.1 n, hp]
          dsimp only
          rw [if_neg hm]
        have h1 : EInv gone { s with functs := (n.digest, n.pos) :: s.functs } lk :=
          ⟨h.bal, h.mlen, h.alen, h.clen, h.dlen, fun hx => absurd hx hc.1, h.act, h.valid, h.users, h.piles, h.going⟩
        obtain ⟨k1, k2⟩ := start_inv (ok := ok) h1 he (h.valid n q hg)
        exact keep _ hs k2 (by simp) k1
  | use k =>
    refine same ?_ (by simp)
    unfold eStep
    rw [if_neg hgo]
    dsimp only
    cases hu : s.users[k]? with
    | none => rfl
    | some u =>
      dsimp only
      rw [h.bal.touch (by have := (h.users u (List.mem_of_getElem? hu)).pos; omega)]
  | close k =>
    cases hu : s.users[k]? with
    | none =>
      refine same ?_ (by simp)
      unfold eStep
      rw [if_neg hgo]
      dsimp only
      rw [hu]
    | some u =>
      have hs : eStep ok s (.close k) = dropEngine { s with users := s.users.eraseIdx k } := by
        unfold eStep
        rw [if_neg hgo]
        dsimp only
        rw [hu]
        dsimp only
        rw [h.bal.touch (by have := (h.users u (List.mem_of_getElem? hu)).pos; omega)]
      have h1 : EInv gone { s with users := s.users.eraseIdx k } lk :=
        ⟨h.bal, h.mlen, h.alen, h.clen, h.dlen, fun hx => by
          obtain ⟨a, b, c, d, e, f⟩ := h.idle hx
          refine ⟨a, b, c, ?_, e, f⟩
          dsimp only
          rw [d]
          rfl, h.act, h.valid, fun v hv => h.users v (List.mem_of_mem_eraseIdx hv), h.piles, h.going⟩
      refine ⟨lk, Or.inl ?_, by omega⟩
      have := drop_inv h1
      have hg : Spec.goesAway ok s (.close k) = (s.eng.isSome && (dropEngine { s with users := s.users.eraseIdx k }).eng.isNone) := by
        unfold Spec.goesAway
        rw [hs]
        simp
      rw [hg, hs]
      exact this

theorem erun_inv {ok : Nat → Bool} : ∀ {evs : List EEv} {s : EState} {gone : Bool} {lk : List Ptr}, EOk gone s lk →
    Spec.Careful ok gone s evs →
    ∃ gone' lk', EOk gone' (eRun ok s evs) lk' ∧ lk'.length ≤ lk.length + Spec.failedEngineLoads ok s evs := by
  intro evs
  induction evs with
  | nil => exact fun h _ => ⟨_, _, h, by omega⟩
  | cons e r ih =>
    intro s gone lk h hc
    obtain ⟨c1, c2⟩ := hc
    obtain ⟨lk1, h1, l1⟩ := estep_inv (ok := ok) e h c1
    obtain ⟨g2, lk2, h2, l2⟩ := ih h1 c2
    refine ⟨g2, lk2, h2, ?_⟩
    show lk2.length ≤ lk.length + ((if e = .load ∧ (eStep ok s e).eng = none then 1 else 0) + Spec.failedEngineLoads ok (eStep ok s e) r)
    omega

/-! ## C81 -/

/-- **C81.** Whatever allocations fail, a careful history (names looked up only while the engine is loaded; the choice of the engine left
to libcrypto only before the engine has gone away for the first time) never frees an object twice and never uses an object that has been
freed.  Missing: histories that are not careful, for which this is false (`C81_name_after_unload_false`, `C81_reload_false`,
`C81_failed_load_false`). -/
theorem C81_careful_safe_partial (ok : Nat → Bool) (evs : List EEv) (h : Spec.Careful ok false eInit evs) :
    (eRun ok eInit evs).p.mem.fault = false := by
  obtain ⟨g, lk, hi, _⟩ := erun_inv (Or.inl einv_init) h
  rcases hi with hi | hi
  · exact hi.bal.1
  · exact hi.2

/-- **C81.** After a careful history at the end of which the engine is not loaded (and the process did not crash), everything it
allocated has been freed, except at most one object for each load that failed. -/
theorem C81_everything_freed (ok : Nat → Bool) (evs : List EEv) (h : Spec.Careful ok false eInit evs)
    (hc : (eRun ok eInit evs).crashed = false) (he : (eRun ok eInit evs).eng = none) :
    (eRun ok eInit evs).p.mem.live.length ≤ Spec.failedEngineLoads ok eInit evs := by
  obtain ⟨g, lk, hi, hl⟩ := erun_inv (Or.inl einv_init) h
  rcases hi with hi | hi
  · have hperm : (eRun ok eInit evs).p.mem.live.Perm lk := by
      rw [List.perm_iff_count]
      intro q
      obtain ⟨i1, i2, i3, _⟩ := hi.idle he
      have h0 : engAt (eRun ok eInit evs) q = 0 := by unfold engAt; rw [he]
      have h1 := hi.bal.2 q
      dsimp only at h1
      rw [h1, varsAt_zero i1 i2 i3, h0, Nat.add_zero, Nat.zero_add]
    rw [hperm.length_eq]
    simpa using hl
  · rw [hc] at hi
    exact Bool.noConfusion hi.1

/-- **C81.** While the engine is loaded every one of its names resolves to a live method, the one the engine itself gives. -/
theorem C81_names_resolve (ok : Nat → Bool) (evs : List EEv) (h : Spec.Careful ok false eInit evs)
    (hc : (eRun ok eInit evs).crashed = false) (he : (eRun ok eInit evs).eng ≠ none) (n : AlgName) (hn : n.valid = true) :
    ∃ q, getName (eRun ok eInit evs).names n = some q ∧ q ∈ (eRun ok eInit evs).p.mem.live ∧
      (algMeth ok (eRun ok eInit evs).p n.digest n.pos).1 = some q := by
  obtain ⟨g, lk, hi, _⟩ := erun_inv (Or.inl einv_init) h
  rcases hi with hi | hi
  · obtain ⟨q, h1, h2⟩ := (hi.act he).2 n hn
    refine ⟨q, h1, ?_, ?_⟩
    · have := hi.bal.2 q
      dsimp only at this
      have hp := (cachedAt_cached h2).pos
      exact List.count_pos_iff.1 (by omega)
    · unfold algMeth
      unfold cachedAt at h2
      cases hd : n.digest with
      | true => rw [hd, if_pos rfl] at h2; rw [if_pos rfl]; unfold initMeth; rw [h2]
      | false => rw [hd, if_neg (by decide)] at h2; rw [if_neg (by decide)]; unfold initMeth; rw [h2]
  · rw [hc] at hi
    exact Bool.noConfusion hi.1

/-- **C81.** Loading the engine when it is loaded is refused: nothing but the state of the allocator changes. -/
theorem C81_second_load_refused (ok : Nat → Bool) (evs : List EEv) (h : Spec.Careful ok false eInit evs)
    (hc : (eRun ok eInit evs).crashed = false) (he : (eRun ok eInit evs).eng ≠ none) :
    ∃ m : Mem, eStep ok (eRun ok eInit evs) .load = { eRun ok eInit evs with p := { (eRun ok eInit evs).p with mem := m } } ∧
      m.fault = false ∧ ∀ q, m.live.count q = (eRun ok eInit evs).p.mem.live.count q := by
  obtain ⟨g, lk, hi, _⟩ := erun_inv (Or.inl einv_init) h
  rcases hi with hi | hi
  · generalize eRun ok eInit evs = s at *
    obtain ⟨a1, _⟩ := hi.act he
    unfold eStep
    rw [if_neg (by rw [hc]; decide)]
    dsimp only
    unfold engineLoad
    cases ha : alloc ok s.p.mem with
    | mk o m1 =>
    have h1 := hi.bal.alloc ha
    cases o with
    | none => exact ⟨m1, rfl, h1.1, fun q => by rw [h1.2, hi.bal.2]; dsimp only; rw [cn_cons_none, cn_nil, Nat.add_zero]⟩
    | some e =>
      dsimp only
      rw [if_pos a1]
      have h2 : At (release m1 e) (fun q => engAt s q + varsAt s.p q + lk.count q) := At.release (h1.congr fun q => by rw [cn_cons_some, cn_nil, Nat.zero_add])
      refine ⟨release m1 e, rfl, h2.1, fun q => ?_⟩
      rw [h2.2, hi.bal.2]
  · rw [hc] at hi
    exact Bool.noConfusion hi.1

/-! ### Loads that succeed -/

/-- From now on every allocation succeeds. -/
def Plenty (ok : Nat → Bool) (m : Mem) : Prop := ∀ n, m.calls ≤ n → ok n = true

theorem Plenty.alloc {ok : Nat → Bool} {m : Mem} (h : Plenty ok m) : ∃ m1, Life.alloc ok m = (some m.next, m1) ∧ Plenty ok m1 := by
  refine ⟨_, by unfold Life.alloc; rw [if_pos (h _ (Nat.le_refl _))], fun n hn => h n ?_⟩
  dsimp only at hn
  omega

theorem Plenty.attempt {ok : Nat → Bool} {m : Mem} (h : Plenty ok m) : ∃ m1, Life.attempt ok m = (true, m1) ∧ Plenty ok m1 := by
  refine ⟨_, by unfold Life.attempt; rw [h _ (Nat.le_refl _)], fun n hn => h n ?_⟩
  dsimp only at hn
  omega

theorem createNIDs_plenty {ok : Nat → Bool} : ∀ {l : List (Option Ptr)} {m : Mem}, Plenty ok m →
    ∃ m1 l1, createNIDs ok m l = (m1, l1, true) ∧ Plenty ok m1 := by
  intro l
  induction l with
  | nil => exact fun h => ⟨_, _, rfl, h⟩
  | cons x r ih =>
    intro m h
    obtain ⟨m1, e1, h1⟩ := h.alloc
    obtain ⟨m2, e2, h2⟩ := h1.attempt
    obtain ⟨m3, l3, e3, h3⟩ := ih h2
    refine ⟨m3, some m.next :: l3, ?_, h3⟩
    rw [createNIDs, e1]
    dsimp only
    rw [e2]
    dsimp only
    rw [e3]

theorem registerMeths_plenty {ok : Nat → Bool} : ∀ {l : List (Bool × Option Ptr × Option Ptr)} {m : Mem}, Plenty ok m →
    (registerMeths ok m l).2.2 = true ∧ Plenty ok (registerMeths ok m l).1 := by
  intro l
  induction l with
  | nil => exact fun h => ⟨rfl, h⟩
  | cons x r ih =>
    intro m h
    obtain ⟨sk, s⟩ := x
    cases sk with
    | true => rw [registerMeths]; exact ih h
    | false =>
      obtain ⟨m1, e1, h1⟩ := h.alloc
      obtain ⟨m2, e2, h2⟩ := h1.alloc
      rw [registerMeths, e1]
      dsimp only
      rw [e2]
      exact ih h2

theorem addMeths_plenty {ok : Nat → Bool} {d : Bool} : ∀ {is : List Nat} {m : Mem} {c : List (Option Ptr)}
    {names : List (AlgName × Ptr)}, Plenty ok m → ∃ m1 c1 n1, addMeths ok d m c names is = (m1, c1, n1, .bound) ∧ Plenty ok m1 := by
  intro is
  induction is with
  | nil => exact fun h => ⟨_, _, _, rfl, h⟩
  | cons i r ih =>
    intro m c names h
    have hi : ∃ p m1 c1, initMeth ok m c i = (some p, m1, c1) ∧ Plenty ok m1 := by
      unfold initMeth
      cases c.getD i none with
      | some p => exact ⟨_, _, _, rfl, h⟩
      | none =>
        obtain ⟨m1, e1, h1⟩ := h.alloc
        dsimp only
        rw [e1]
        exact ⟨_, _, _, rfl, h1⟩
    obtain ⟨p, m1, c1, e1, h1⟩ := hi
    obtain ⟨m2, e2, h2⟩ := h1.attempt
    obtain ⟨m3, e3, h3⟩ := h2.attempt
    obtain ⟨m4, c4, n4, e4, h4⟩ := ih (c := c1) (names := (⟨d, i, true⟩, p) :: (⟨d, i, false⟩, p) :: names) h3
    refine ⟨m4, c4, n4, ?_, h4⟩
    rw [addMeths, e1]
    dsimp only
    unfold addNames
    rw [e2]
    dsimp only
    rw [e3]
    exact e4

/-- **C81.** After any careful history, when the engine is not loaded and memory suffices, loading it succeeds: the engine is loaded,
and the process has not crashed.  In particular it can be loaded again after having been unloaded. -/
theorem C81_load_succeeds (ok : Nat → Bool) (evs : List EEv) (h : Spec.Careful ok false eInit evs)
    (hc : (eRun ok eInit evs).crashed = false) (he : (eRun ok eInit evs).eng = none)
    (hm : ∀ n, (eRun ok eInit evs).p.mem.calls ≤ n → ok n = true) :
    (eRun ok eInit (evs ++ [.load])).eng ≠ none ∧ (eRun ok eInit (evs ++ [.load])).crashed = false ∧
      (eRun ok eInit (evs ++ [.load])).listed = true := by
  obtain ⟨g, lk, hi, _⟩ := erun_inv (Or.inl einv_init) h
  have hrun : eRun ok eInit (evs ++ [.load]) = eStep ok (eRun ok eInit evs) .load := by
    unfold eRun
    rw [List.foldl_append]
    rfl
  rw [hrun]
  rcases hi with hi | hi
  · generalize eRun ok eInit evs = s at *
    obtain ⟨i1, i2, i3, i4, i5, i6⟩ := hi.idle he
    have hp : Plenty ok s.p.mem := hm
    unfold eStep
    rw [if_neg (by rw [hc]; decide)]
    dsimp only
    unfold engineLoad
    obtain ⟨m1, e1, h1⟩ := hp.alloc
    rw [e1]
    dsimp only
    rw [if_neg (by rw [getD_none_pairs i1]; decide)]
    obtain ⟨m2, l2, e2, h2⟩ := createNIDs_plenty (l := s.p.asn1) h1
    obtain ⟨r1, r2⟩ := registerMeths_plenty (l := skipped.zip s.p.meths) h2
    have hpop : populate ok { s.p with mem := m1 } = ({ s.p with
        mem := (registerMeths ok m2 (skipped.zip s.p.meths)).1
        asn1 := l2
        meths := (registerMeths ok m2 (skipped.zip s.p.meths)).2.1 }, true, true) := by
      unfold populate
      dsimp only
      rw [e2]
      dsimp only
      rw [r1]
    rw [hpop]
    dsimp only
    obtain ⟨m3, e3, h3⟩ := r2.attempt
    rw [e3]
    dsimp only
    obtain ⟨m4, c4, n4, e4, h4⟩ := addMeths_plenty (d := false) (is := List.range 20) (c := s.p.ciphers) (names := s.names) h3
    obtain ⟨m5, c5, n5, e5, h5⟩ := addMeths_plenty (d := true) (is := List.range 8) (c := s.p.digests) (names := n4) h4
    unfold bindNames
    dsimp only
    rw [e4]
    dsimp only
    rw [e5]
    exact ⟨by simp, hc, rfl⟩
  · rw [hc] at hi
    exact Bool.noConfusion hi.1

/-! ### Histories that meet the hypotheses -/

/-- Loading, looking up, using with the engine given and by default, unloading while in use, closing; with memory. -/
example : Spec.Careful (fun _ => true) false eInit
    [.load, .lookup ⟨false, 3, true⟩, .load, .openWith ⟨true, 2, false⟩, .openDefault ⟨false, 7, false⟩, .remove, .use 0, .close 0,
      .close 0] ∧
    (eRun (fun _ => true) eInit [.load, .openWith ⟨true, 2, false⟩, .remove, .use 0]).eng = some 0 ∧
    (eRun (fun _ => true) eInit [.load, .openWith ⟨true, 2, false⟩, .remove, .use 0, .close 0]).eng = none ∧
    (eRun (fun _ => true) eInit [.load, .openWith ⟨true, 2, false⟩, .remove, .use 0, .close 0]).p.mem.live = [] := by
  refine ⟨⟨trivial, ?_, trivial, ?_, ?_, trivial, trivial, trivial, trivial, trivial⟩, ?_⟩ <;> decide +kernel

/-- Two rounds with the engine given: careful, everything freed. -/
example : Spec.Careful (fun _ => true) false eInit
    [.load, .openWith ⟨false, 0, false⟩, .close 0, .remove, .load, .openWith ⟨false, 0, false⟩, .close 0, .remove] ∧
    (eRun (fun _ => true) eInit [.load, .openWith ⟨false, 0, false⟩, .close 0, .remove, .load, .openWith ⟨false, 0, false⟩, .close 0,
      .remove]).p.mem.live = [] := by
  refine ⟨⟨trivial, ?_, trivial, trivial, trivial, ?_, trivial, trivial, trivial⟩, ?_⟩ <;> decide +kernel

/-- A load that fails while the ciphers are added (its 40th allocation), then one that succeeds. -/
example : (eStep (fun n => n != 40) eInit .load).eng = none ∧ (eStep (fun n => n != 40) eInit .load).crashed = false ∧
    (eStep (fun n => n != 40) eInit .load).p.mem.live = [] ∧
    (eRun (fun n => n != 40) eInit [.load, .load]).eng.isSome = true := by decide +kernel

/-! ### Where it is violated -/

/-- **C81.** After the engine has been unloaded its names still stand for the methods that have been freed: looking one up and reading the
method uses freed memory. -/
theorem C81_name_after_unload_false :
    (eRun (fun _ => true) eInit [.load, .remove]).p.mem.fault = false ∧
    (getName (eRun (fun _ => true) eInit [.load, .remove]).names ⟨false, 3, true⟩).isSome = true ∧
    (eRun (fun _ => true) eInit [.load, .remove, .lookup ⟨false, 3, true⟩]).p.mem.fault = true := by decide +kernel

/-- **C81.** After the engine has been unloaded and loaded again, starting an operation without giving the engine uses the ENGINE that has
been freed: the engine does not take itself out of libcrypto's tables. -/
theorem C81_reload_false :
    (eRun (fun _ => true) eInit [.load, .remove, .load, .lookup ⟨false, 3, true⟩]).p.mem.fault = false ∧
    (eRun (fun _ => true) eInit [.load, .remove, .load, .openWith ⟨false, 3, true⟩]).p.mem.fault = false ∧
    (eRun (fun _ => true) eInit [.load, .remove, .load, .openDefault ⟨false, 3, true⟩]).p.mem.fault = true := by decide +kernel

/-- **C81.** The same after a load that failed for lack of memory. -/
theorem C81_failed_load_false :
    (eRun (fun n => n != 40) eInit [.load, .load, .lookup ⟨false, 3, true⟩]).p.mem.fault = false ∧
    (eRun (fun n => n != 40) eInit [.load, .load, .openDefault ⟨false, 3, true⟩]).p.mem.fault = true := by decide +kernel

/-- **C81.** A load for which the memory for a digest method is missing crashes the process (for a cipher method it fails). -/
theorem C81_digest_memory_crash_false :
    (eStep (fun n => n != 84) eInit .load).crashed = true ∧ (eStep (fun n => n != 81) eInit .load).crashed = false ∧
    (eStep (fun n => n != 81) eInit .load).eng = none := by decide +kernel

end Gost.Life
