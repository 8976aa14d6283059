import Verif.Model.Engine

/-!
# C51, C52: engine parameters and method tables
-/

namespace Gost

/-! ## C51 -/

/-- An operation on the engine parameters. -/
inductive ParamOp where
  | ctrl (param : Int) (value : Option CStr)
  | get (param : Int)
  | free

/-- What an operation returns. -/
inductive ParamRes where
  | code (r : Int)
  | value (v : Option CStr)
  | unit
  deriving DecidableEq

/-- The code on an operation. -/
def stepParam (env : Env) (s : EngParams) : ParamOp → EngParams × ParamRes
  | .ctrl k v => ((gost_control_func env s k v).1, .code (gost_control_func env s k v).2)
  | .get k => ((get_gost_engine_param env s k).1, .value (get_gost_engine_param env s k).2)
  | .free => (gost_param_free s, .unit)

/-- The code on a sequence of operations, each with the environment at that moment. -/
def runParams : EngParams → List (Env × ParamOp) → EngParams × List ParamRes
  | s, [] => (s, [])
  | s, (env, op) :: ops =>
    let r := stepParam env s op
    let t := runParams r.1 ops
    (t.1, r.2 :: t.2)

namespace Spec

/-- The three parameters and the environment variables that preset them. -/
def paramVar : Int → Option String
  | 0 => some "CRYPT_PARAMS"
  | 1 => some "GOST_PBE_HMAC"
  | 2 => some "GOST_PK_FORMAT"
  | _ => none

/-- The specification: a value per parameter; setting prefers the environment, a lookup without a value takes (and keeps) that
of the environment; numbers that are not a parameter are refused: with 0 for the first number after the parameters, with -1
for others. -/
def runParamsSpec : (Int → Option CStr) → List (Env × ParamOp) → List ParamRes
  | _, [] => []
  | m, (env, .ctrl k v) :: ops =>
    match paramVar k with
    | none => .code (if k = 3 then 0 else -1) :: runParamsSpec m ops
    | some var => .code 1 :: runParamsSpec (fun i => if i = k then (env var).or v else m i) ops
  | m, (env, .get k) :: ops =>
    match paramVar k with
    | none => .value none :: runParamsSpec m ops
    | some var => .value ((m k).or (env var)) :: runParamsSpec (fun i => if i = k then (m k).or (env var) else m i) ops
  | _, (_, .free) :: ops => .unit :: runParamsSpec (fun _ => none) ops

end Spec
open Spec

/-- The array holds the values of the specification. -/
def ParamsRep (m : Int → Option CStr) (s : EngParams) : Prop := ∃ d, s = [m 0, m 1, m 2, d]

theorem param_cases (k : Int) : k = 0 ∨ k = 1 ∨ k = 2 ∨ (paramVar k = none ∧ (k < 0 ∨ k ≥ 3)) := by
  by_cases h0 : k = 0
  · exact .inl h0
  by_cases h1 : k = 1
  · exact .inr (.inl h1)
  by_cases h2 : k = 2
  · exact .inr (.inr (.inl h2))
  refine .inr (.inr (.inr ⟨?_, by omega⟩))
  unfold paramVar
  split <;> first | rfl | contradiction

theorem or_match (a b : Option CStr) : (match a with | none => b | some t => some t) = a.or b := by cases a <;> rfl

/-- **C51.** For every sequence of set, lookup and free operations and every (changing) environment the results are those of
the specification. -/
theorem C51_engine_parameters (ops : List (Env × ParamOp)) :
    (runParams gost_params_init ops).2 = runParamsSpec (fun _ => none) ops := by
  suffices ∀ (m : Int → Option CStr) (s : EngParams), ParamsRep m s → (runParams s ops).2 = runParamsSpec m ops from
    this _ _ ⟨none, rfl⟩
  induction ops with
  | nil => intros; rfl
  | cons op ops ih =>
    obtain ⟨env, op⟩ := op
    rintro m s ⟨d, rfl⟩
    rw [runParams]
    cases op with
    | free =>
      rw [runParamsSpec, stepParam]
      simp only
      rw [ih (fun _ => none) (gost_param_free [m 0, m 1, m 2, d]) ⟨none, rfl⟩]
    | ctrl k v =>
      rw [runParamsSpec, stepParam]
      rcases param_cases k with rfl | rfl | rfl | ⟨hv, hk⟩
      · simp only [paramVar]
        refine (congrArg (List.cons _) (ih (fun i => if i = 0 then (env "CRYPT_PARAMS").or v else m i) _ ⟨d, ?_⟩) : _)
        simp [gost_control_func, gost_set_default_param, gost_envnames]
        exact or_match _ _
      · simp only [paramVar]
        refine (congrArg (List.cons _) (ih (fun i => if i = 1 then (env "GOST_PBE_HMAC").or v else m i) _ ⟨d, ?_⟩) : _)
        simp [gost_control_func, gost_set_default_param, gost_envnames]
        exact or_match _ _
      · simp only [paramVar]
        refine (congrArg (List.cons _) (ih (fun i => if i = 2 then (env "GOST_PK_FORMAT").or v else m i) _ ⟨d, ?_⟩) : _)
        simp [gost_control_func, gost_set_default_param, gost_envnames]
        exact or_match _ _
      · rw [hv]
        simp only
        have : gost_control_func env [m 0, m 1, m 2, d] k v = ([m 0, m 1, m 2, d], if k = 3 then 0 else -1) := by
          unfold gost_control_func gost_set_default_param
          by_cases h3 : k = 3
          · subst h3; rfl
          · rw [if_pos (by omega), if_neg h3]
        rw [this, ih m _ ⟨d, rfl⟩]
    | get k =>
      rw [runParamsSpec, stepParam]
      have key : ∀ (k : Int) (var : String), paramVar k = some var → (k = 0 ∨ k = 1 ∨ k = 2) →
          (get_gost_engine_param env [m 0, m 1, m 2, d] k).2 = (m k).or (env var) ∧
          ParamsRep (fun i => if i = k then (m k).or (env var) else m i) (get_gost_engine_param env [m 0, m 1, m 2, d] k).1 := by
        intro k var hvar hk
        have hvar' : gost_envnames.getD k.toNat "" = var := by
          rcases hk with rfl | rfl | rfl <;> (simp only [paramVar, Option.some.injEq] at hvar; rw [← hvar]; rfl)
        have hget : ([m 0, m 1, m 2, d] : EngParams).getD k.toNat none = m k := by rcases hk with rfl | rfl | rfl <;> rfl
        unfold get_gost_engine_param
        rw [if_neg (by omega), hget, hvar']
        cases hm : m k with
        | some x =>
          refine ⟨by simp, d, ?_⟩
          rcases hk with rfl | rfl | rfl <;> simp [hm]
        | none =>
          cases he : env var with
          | none =>
            refine ⟨by simp, d, ?_⟩
            rcases hk with rfl | rfl | rfl <;> simp [hm]
          | some t =>
            refine ⟨by simp, d, ?_⟩
            rcases hk with rfl | rfl | rfl <;> simp
      rcases param_cases k with hk | hk | hk | ⟨hv, hk⟩
      · have hvar : paramVar k = some "CRYPT_PARAMS" := by rw [hk]; rfl
        obtain ⟨h1, h2⟩ := key k _ hvar (by omega)
        rw [hvar]
        simp only
        rw [h1, ih _ _ h2]
      · have hvar : paramVar k = some "GOST_PBE_HMAC" := by rw [hk]; rfl
        obtain ⟨h1, h2⟩ := key k _ hvar (by omega)
        rw [hvar]
        simp only
        rw [h1, ih _ _ h2]
      · have hvar : paramVar k = some "GOST_PK_FORMAT" := by rw [hk]; rfl
        obtain ⟨h1, h2⟩ := key k _ hvar (by omega)
        rw [hvar]
        simp only
        rw [h1, ih _ _ h2]
      · rw [hv]
        simp only
        have : get_gost_engine_param env [m 0, m 1, m 2, d] k = ([m 0, m 1, m 2, d], none) := by
          unfold get_gost_engine_param
          rw [if_pos (by omega)]
        rw [this, ih m _ ⟨d, rfl⟩]

theorem runParams_state (ops : List (Env × ParamOp)) : ∃ m, ParamsRep m (runParams gost_params_init ops).1 := by
  suffices ∀ s : EngParams, s.length = 4 → (runParams s ops).1.length = 4 by
    have h := this gost_params_init rfl
    generalize (runParams gost_params_init ops).1 = s at h
    match s, h with
    | [a, b, c, d], _ => exact ⟨fun i => if i = 0 then a else if i = 1 then b else c, d, by simp⟩
  induction ops with
  | nil => exact fun s h => h
  | cons op ops ih =>
    obtain ⟨env, op⟩ := op
    intro s hs
    rw [runParams]
    cases op with
    | free => exact ih _ (by simp [stepParam, gost_param_free, hs])
    | ctrl k v =>
      refine ih _ ?_
      simp only [stepParam, gost_control_func, gost_set_default_param]
      split
      · exact hs
      · split <;> simp [hs]
    | get k =>
      refine ih _ ?_
      simp only [stepParam, get_gost_engine_param]
      split
      · exact hs
      · split
        · exact hs
        · split <;> simp [hs]

/-- **C51**, lookups are stable: after any history, once a lookup has returned a value, later lookups return the same value
whatever happens to the environment. -/
theorem C51_lookup_stable (ops : List (Env × ParamOp)) (env env' : Env) (k : Int) (x : CStr)
    (h : (get_gost_engine_param env (runParams gost_params_init ops).1 k).2 = some x) :
    (get_gost_engine_param env' (get_gost_engine_param env (runParams gost_params_init ops).1 k).1 k).2 = some x := by
  obtain ⟨m, d, hs⟩ := runParams_state ops
  rw [hs] at h ⊢
  rcases param_cases k with rfl | rfl | rfl | ⟨-, hk⟩
  · unfold get_gost_engine_param at *
    cases hm : m 0 with
    | some y => simp [hm] at h ⊢; exact h
    | none => simp [hm] at h ⊢; cases he : env (gost_envnames.getD 0 "") <;> simp_all
  · unfold get_gost_engine_param at *
    cases hm : m 1 with
    | some y => simp [hm] at h ⊢; exact h
    | none => simp [hm] at h ⊢; cases he : env (gost_envnames.getD 1 "") <;> simp_all
  · unfold get_gost_engine_param at *
    cases hm : m 2 with
    | some y => simp [hm] at h ⊢; exact h
    | none => simp [hm] at h ⊢; cases he : env (gost_envnames.getD 2 "") <;> simp_all
  · unfold get_gost_engine_param at h
    rw [if_pos (by omega)] at h
    cases h

/-- **C51**, refusals change nothing: a parameter number outside 0..2 is not accepted and leaves all values as they were. -/
theorem C51_out_of_range (env : Env) (s : EngParams) (k : Int) (v : Option CStr) (hk : k < 0 ∨ 2 < k) :
    (gost_control_func env s k v).1 = s ∧ (gost_control_func env s k v).2 ≤ 0 ∧ get_gost_engine_param env s k = (s, none) := by
  unfold gost_control_func gost_set_default_param get_gost_engine_param
  rw [if_pos (show k < 0 ∨ k ≥ 3 by omega), if_pos (show k < 0 ∨ k ≥ 3 by omega)]
  split <;> simp

/-- Witness: a value is set, the environment then changes, a lookup still returns the value set; another parameter is looked
up from the environment and kept. -/
example : (runParams gost_params_init [(fun _ => none, .ctrl 0 (some [1])), (fun _ => some [2], .get 0), (fun _ => some [2], .get 1),
    (fun _ => none, .get 1), (fun _ => some [3], .ctrl 1 (some [4])), (fun _ => none, .get 1), (fun _ => none, .ctrl 3 none)]).2 =
  [.code 1, .value (some [1]), .value (some [2]), .value (some [2]), .code 1, .value (some [3]), .code 0] := by decide

/-! ## C52 -/

/-- Loading (with the NID the object table hands out) and destroying the engine. -/
inductive EngOp where
  | load (fresh : Nat)
  | destroy

/-- The state after a history. -/
def runEng : EngState → List EngOp → EngState
  | s, [] => s
  | s, .load f :: ops => runEng (make_gost_engine f s).1 ops
  | s, .destroy :: ops => runEng (gost_engine_destroy s) ops

/-- The methods of a loaded engine. -/
def loadedMeths : List (Option Nid) := gost_meth_array.map fun n => if n = .magma_ctracpkm_omac then none else some n

theorem populate_meths (f : Nat) (s : EngState) (hp : s.pmeth = List.replicate 10 none) (ha : s.ameth = List.replicate 10 none) :
    populate_gost_engine f s = (⟨loadedMeths, loadedMeths, .new f, .new (f + 1)⟩, 1) := by
  unfold populate_gost_engine
  simp only
  rw [hp, ha, show registerLoop (gost_meth_array.zip ((List.replicate 10 none).zip (List.replicate 10 none))) =
    (loadedMeths.zip loadedMeths, 1) from by decide]
  rfl

/-- The states the engine can be in: not loaded, or loaded. -/
theorem eng_states (ops : List EngOp) (s : EngState)
    (hs : (s.pmeth = List.replicate 10 none ∧ s.ameth = List.replicate 10 none) ∨
      ∃ f, s = ⟨loadedMeths, loadedMeths, .new f, .new (f + 1)⟩) :
    ((runEng s ops).pmeth = List.replicate 10 none ∧ (runEng s ops).ameth = List.replicate 10 none) ∨
      ∃ f, runEng s ops = ⟨loadedMeths, loadedMeths, .new f, .new (f + 1)⟩ := by
  induction ops generalizing s with
  | nil => exact hs
  | cons op ops ih =>
    cases op with
    | load f =>
      refine ih _ ?_
      unfold make_gost_engine
      rcases hs with ⟨hp, ha⟩ | ⟨g, rfl⟩
      · rw [if_pos (by unfold check_gost_engine; rw [ha]; rfl), populate_meths f s hp ha]
        exact .inr ⟨f, rfl⟩
      · rw [if_neg (by unfold check_gost_engine; simp only; decide)]
        exact .inr ⟨g, rfl⟩
    | destroy =>
      refine ih _ (.inl ?_)
      unfold gost_engine_destroy
      rcases hs with ⟨hp, ha⟩ | ⟨g, rfl⟩
      · rw [hp, ha]; exact ⟨rfl, rfl⟩
      · exact ⟨rfl, rfl⟩

/-- A successful load after any history. -/
theorem loaded_state (ops : List EngOp) (f : Nat) (h : (make_gost_engine f (runEng engInit ops)).2 = 1) :
    (make_gost_engine f (runEng engInit ops)).1 = ⟨loadedMeths, loadedMeths, .new f, .new (f + 1)⟩ := by
  rcases eng_states ops engInit (.inl ⟨rfl, rfl⟩) with ⟨hp, ha⟩ | ⟨g, hg⟩
  · unfold make_gost_engine
    rw [if_pos (by unfold check_gost_engine; rw [ha]; rfl), populate_meths f _ hp ha]
  · rw [hg] at h
    unfold make_gost_engine at h
    rw [if_neg (by unfold check_gost_engine; simp only; decide)] at h
    cases h

/-- **C52** (all NIDs but one): after any history, when loading the engine succeeds, every listed NID except the Magma
CTR-ACPKM-OMAC one resolves, with success reported, to a public-key method and an ASN.1 method made for that NID. -/
theorem C52_pkey_methods_partial (ops : List EngOp) (f : Nat) (h : (make_gost_engine f (runEng engInit ops)).2 = 1) :
    ∀ nid ∈ gost_meth_nids, nid ≠ .magma_ctracpkm_omac →
      gost_pkey_meths (make_gost_engine f (runEng engInit ops)).1 nid = (1, some nid) ∧
      gost_pkey_asn1_meths (make_gost_engine f (runEng engInit ops)).1 nid = (1, some nid) := by
  rw [loaded_state ops f h]
  intro nid hm hne
  simp only [gost_pkey_meths, gost_pkey_asn1_meths]
  revert nid
  decide

/-- **C52** is false of the code: the Magma CTR-ACPKM-OMAC NID is listed, but after any history whatsoever the lookup reports
success with a NULL method. -/
theorem C52_pkey_methods_false (ops : List EngOp) :
    .magma_ctracpkm_omac ∈ gost_meth_nids ∧
      gost_pkey_meths (runEng engInit ops) .magma_ctracpkm_omac = (1, none) ∧
      gost_pkey_asn1_meths (runEng engInit ops) .magma_ctracpkm_omac = (1, none) := by
  refine ⟨by decide, ?_⟩
  rcases eng_states ops engInit (.inl ⟨rfl, rfl⟩) with ⟨hp, ha⟩ | ⟨g, hg⟩
  · unfold gost_pkey_meths gost_pkey_asn1_meths
    rw [hp, ha]
    decide
  · rw [hg]
    unfold gost_pkey_meths gost_pkey_asn1_meths
    simp only
    decide

/-- **C52**: NIDs that are not listed are refused, in every state. -/
theorem C52_unlisted_refused (s : EngState) (nid : Nid) :
    (nid ∉ gost_meth_nids → gost_pkey_meths s nid = (0, none) ∧ gost_pkey_asn1_meths s nid = (0, none)) ∧
    (nid ∉ gost_cipher_nids s → gost_ciphers s nid = (0, none)) ∧
    (nid ∉ gost_digest_array.map (·.1) → gost_digests nid = (0, none)) := by
  have key : ∀ (l : List (Nid × Option Nid)), nid ∉ l.map (·.1) → lookupNid nid l = none := by
    intro l
    induction l with
    | nil => intro _; rfl
    | cons e l ih =>
      intro hn
      obtain ⟨n, m⟩ := e
      rw [List.map_cons, List.mem_cons, not_or] at hn
      rw [lookupNid, if_neg hn.1, ih hn.2]
  have hz : ∀ (a : List Nid) (b : List (Option Nid)), nid ∉ a → nid ∉ (a.zip b).map (·.1) := by
    intro a b hn hc
    rw [List.mem_map] at hc
    obtain ⟨⟨x, y⟩, hxy, rfl⟩ := hc
    exact hn (List.of_mem_zip hxy).1
  refine ⟨fun h => ?_, fun h => ?_, fun h => ?_⟩
  · unfold gost_meth_nids at h
    unfold gost_pkey_meths gost_pkey_asn1_meths
    rw [key _ (hz _ _ h), key _ (hz _ _ h)]
    exact ⟨rfl, rfl⟩
  · unfold gost_ciphers
    have : (gost_cipher_array s.kuzMgm s.magmaMgm).find? (fun c => decide (nid = c.nid)) = none := by
      rw [List.find?_eq_none]
      intro c hc
      simp only [decide_eq_true_eq]
      rintro rfl
      exact h (List.mem_map_of_mem hc)
    rw [this]
  · unfold gost_digests
    have : gost_digest_array.find? (fun d => decide (nid = d.1)) = none := by
      rw [List.find?_eq_none]
      intro c hc
      simp only [decide_eq_true_eq]
      rintro rfl
      exact h (List.mem_map_of_mem hc)
    rw [this]

/-- **C52** for ciphers: after any history ending in a successful load, every listed cipher NID resolves, without failing an
assertion, to a cipher made for that NID, with a 32-byte key (64 for the wrap ciphers) and its callbacks set. -/
theorem C52_ciphers (ops : List EngOp) (f : Nat) (h : (make_gost_engine f (runEng engInit ops)).2 = 1) :
    ∀ nid ∈ gost_cipher_nids (make_gost_engine f (runEng engInit ops)).1, ∃ c : EvpCipher,
      gost_ciphers (make_gost_engine f (runEng engInit ops)).1 nid = (1, some c) ∧ c.nid = nid ∧ c.init ∧ c.do_cipher ∧ c.ctx_size ∧
        c.ctrl ∧ c.key_len = if nid = .magma_kexp15 ∨ nid = .kuznyechik_kexp15 then 64 else 32 := by
  rw [loaded_state ops f h]
  intro nid hm
  simp only [gost_cipher_nids, gost_cipher_array, List.map_cons, List.map_nil, List.mem_cons, List.not_mem_nil, or_false] at hm
  have hk : ∀ c ∈ gost_cipher_array (.new f) (.new (f + 1)), cipherAsserts c = true ∧ (c.d.init || c.tpl.init) = true ∧
      (c.d.do_cipher || c.tpl.do_cipher) = true ∧ (c.d.ctx_size || c.tpl.ctx_size) = true ∧ (c.d.ctrl || c.tpl.ctrl) = true ∧
      tplN c.d.key_len c.tpl.key_len = if c.nid = .magma_kexp15 ∨ c.nid = .kuznyechik_kexp15 then 64 else 32 := by
    have ha : ∀ n t d, cipherAsserts ⟨n, t, d⟩ = cipherAsserts ⟨.undef, t, d⟩ := fun _ _ _ => rfl
    intro c hc
    simp only [gost_cipher_array, List.mem_cons, List.not_mem_nil, or_false] at hc
    rcases hc with rfl | rfl | rfl | rfl | rfl | rfl | rfl | rfl | rfl | rfl | rfl | rfl | rfl | rfl | rfl | rfl | rfl | rfl | rfl | rfl <;>
      refine ⟨by rw [ha]; decide, rfl, rfl, rfl, rfl, by simp [tplN, gost_template_cipher, grasshopper_template_cipher, magma_template_cipher, wrap_template_cipher]⟩
  have hf : ∃ c ∈ gost_cipher_array (.new f) (.new (f + 1)), (gost_cipher_array (.new f) (.new (f + 1))).find? (fun c => decide (nid = c.nid)) = some c ∧
      c.nid = nid := by
    have hex : ∃ c ∈ gost_cipher_array (.new f) (.new (f + 1)), decide (nid = c.nid) = true := by
      have hm' : nid ∈ (gost_cipher_array (.new f) (.new (f + 1))).map (·.nid) := by
        simpa [gost_cipher_array] using hm
      obtain ⟨c, hc, he⟩ := List.mem_map.1 hm'
      exact ⟨c, hc, by simp [he]⟩
    obtain ⟨c, hc⟩ := Option.isSome_iff_exists.1 (List.find?_isSome.2 hex)
    have := List.find?_some hc
    exact ⟨c, List.mem_of_find?_eq_some hc, hc, (of_decide_eq_true this).symm⟩
  obtain ⟨c, hc, hfind, rfl⟩ := hf
  obtain ⟨k1, k2, k3, k4, k5, k6⟩ := hk c hc
  unfold gost_ciphers
  simp only
  rw [hfind]
  unfold GOST_init_cipher
  simp only
  rw [if_pos k1]
  exact ⟨_, rfl, rfl, k2, k3, k4, k5, k6⟩

/-- **C52** for digests: every listed NID resolves to the digest of that NID; the listed NIDs of each kind are distinct. -/
theorem C52_digests_and_distinct (f : Nat) :
    (∀ d ∈ gost_digest_array, gost_digests d.1 = (1, some d)) ∧ (gost_digest_array.map (·.1)).Nodup ∧ gost_meth_nids.Nodup ∧
      ((gost_cipher_array (.new f) (.new (f + 1))).map (·.nid)).Nodup := by
  refine ⟨by decide, by decide, by decide, ?_⟩
  simp [gost_cipher_array]

/-- Witness: a first load succeeds, a second one is refused, and loading again after destroying succeeds. -/
example : (make_gost_engine 1200 (runEng engInit [])).2 = 1 ∧ (make_gost_engine 1300 (runEng engInit [.load 1200])).2 = 0 ∧
    (make_gost_engine 1300 (runEng engInit [.load 1200, .destroy])).2 = 1 := by decide

namespace Spec

/-- What a user of a cipher sees: block size, key length, IV length and mode (1 ECB, 2 CBC, 3 CFB, 4 OFB and the counter mode of
GOST 28147-89, 5 CTR, 0 AEAD, 0x10002 key wrap) of every cipher (RFC 7801, RFC 8891, GOST R 34.13-2015, RFC 9058, RFC 9189). -/
def cipherSizes (f : Nat) : List (Nid × Nat × Nat × Nat × Nat) := [
  (.id_Gost28147_89, 1, 32, 8, 3), (.gost89_cnt, 1, 32, 8, 4), (.gost89_cnt_12, 1, 32, 8, 4), (.gost89_cbc, 8, 32, 8, 2),
  (.grasshopper_ecb, 16, 32, 0, 1), (.grasshopper_cbc, 16, 32, 16, 2), (.grasshopper_cfb, 1, 32, 16, 3), (.grasshopper_ofb, 1, 32, 16, 4),
  (.grasshopper_ctr, 1, 32, 8, 5), (.magma_ecb, 8, 32, 0, 1), (.new f, 1, 32, 16, 0), (.magma_cbc, 8, 32, 8, 2), (.magma_ctr, 1, 32, 4, 5),
  (.magma_ctr_acpkm, 1, 32, 4, 5), (.magma_ctr_acpkm_omac, 1, 32, 4, 5), (.new (f + 1), 1, 32, 8, 0), (.kuznyechik_ctr_acpkm, 1, 32, 8, 5),
  (.kuznyechik_ctr_acpkm_omac, 1, 32, 8, 5), (.magma_kexp15, 8, 64, 4, 0x10002), (.kuznyechik_kexp15, 16, 64, 8, 0x10002)]

/-- The size of every digest's result. -/
def digestSizes : List (Nid × Nat) := [
  (.id_GostR3411_94, 32), (.id_GostR3411_2012_256, 32), (.id_GostR3411_2012_512, 64), (.id_Gost28147_89_MAC, 4), (.gost_mac_12, 4),
  (.magma_mac, 8), (.grasshopper_mac, 16), (.kuznyechik_ctracpkm_omac, 16)]

end Spec

/-- **C52**: after any history ending in a successful load, every cipher has the sizes and the mode its name stands for; ciphers that
take an IV handle it themselves, stream and AEAD modes are without padding, and every cipher but key wrap has its initialisation called
on every init. -/
theorem C52_cipher_sizes (ops : List EngOp) (f : Nat) (h : (make_gost_engine f (runEng engInit ops)).2 = 1) (nid : Nid) (block klen iv mode : Nat)
    (hm : (nid, block, klen, iv, mode) ∈ Spec.cipherSizes f) :
    ∃ c : EvpCipher, gost_ciphers (make_gost_engine f (runEng engInit ops)).1 nid = (1, some c) ∧
      c.block_size = block ∧ c.key_len = klen ∧ c.iv_len = iv ∧ (c.flags &&& ciphMode).toNat = mode ∧
      (c.flags &&& ciphCustomIv ≠ 0 ↔ iv ≠ 0) ∧ (c.flags &&& ciphNoPadding ≠ 0 ↔ block = 1) ∧
      (c.flags &&& ciphAlwaysInit ≠ 0 ↔ mode ≠ 0x10002) ∧ (c.flags &&& ciphAead ≠ 0 ↔ mode = 0) := by
  rw [loaded_state ops f h]
  have key : ∀ c ∈ gost_cipher_array (.new f) (.new (f + 1)), gost_ciphers ⟨loadedMeths, loadedMeths, .new f, .new (f + 1)⟩ c.nid =
      (1, GOST_init_cipher c) := by
    have hnd := (C52_digests_and_distinct f).2.2.2
    generalize ha : gost_cipher_array (.new f) (.new (f + 1)) = arr at hnd
    intro c hc
    have hfind : arr.find? (fun x => decide (c.nid = x.nid)) = some c := by
      clear ha
      induction arr with
      | nil => cases hc
      | cons x l ih =>
        rw [List.map_cons, List.nodup_cons] at hnd
        rcases List.mem_cons.mp hc with rfl | hc
        · exact List.find?_cons_of_pos (by simp)
        · rw [List.find?_cons_of_neg, ih hnd.2 hc]
          simp only [decide_eq_true_eq]
          intro he
          exact hnd.1 (he ▸ List.mem_map_of_mem hc)
    unfold gost_ciphers
    simp only
    rw [ha, hfind]
  have fin : ∀ c ∈ gost_cipher_array (.new f) (.new (f + 1)), cipherAsserts ⟨.undef, c.tpl, c.d⟩ = true →
      (tplN c.d.block_size c.tpl.block_size = block ∧ tplN c.d.key_len c.tpl.key_len = klen ∧ tplN c.d.iv_len c.tpl.iv_len = iv ∧
        ((c.d.flags ||| c.tpl.flags) &&& ciphMode).toNat = mode ∧ ((c.d.flags ||| c.tpl.flags) &&& ciphCustomIv ≠ 0 ↔ iv ≠ 0) ∧
        ((c.d.flags ||| c.tpl.flags) &&& ciphNoPadding ≠ 0 ↔ block = 1) ∧
        ((c.d.flags ||| c.tpl.flags) &&& ciphAlwaysInit ≠ 0 ↔ mode ≠ 0x10002) ∧
        ((c.d.flags ||| c.tpl.flags) &&& ciphAead ≠ 0 ↔ mode = 0)) →
      ∃ c' : EvpCipher, gost_ciphers ⟨loadedMeths, loadedMeths, .new f, .new (f + 1)⟩ c.nid = (1, some c') ∧
        c'.block_size = block ∧ c'.key_len = klen ∧ c'.iv_len = iv ∧ (c'.flags &&& ciphMode).toNat = mode ∧
        (c'.flags &&& ciphCustomIv ≠ 0 ↔ iv ≠ 0) ∧ (c'.flags &&& ciphNoPadding ≠ 0 ↔ block = 1) ∧
        (c'.flags &&& ciphAlwaysInit ≠ 0 ↔ mode ≠ 0x10002) ∧ (c'.flags &&& ciphAead ≠ 0 ↔ mode = 0) := by
    intro c hc hasrt hsz
    have ha : cipherAsserts c = true := hasrt
    rw [key c hc]
    unfold GOST_init_cipher
    rw [if_pos ha]
    exact ⟨_, rfl, hsz⟩
  clear key
  simp only [Spec.cipherSizes, List.mem_cons, List.not_mem_nil, or_false, Prod.mk.injEq] at hm
  rcases hm with ⟨rfl, rfl, rfl, rfl, rfl⟩ | ⟨rfl, rfl, rfl, rfl, rfl⟩ | ⟨rfl, rfl, rfl, rfl, rfl⟩ | ⟨rfl, rfl, rfl, rfl, rfl⟩ | ⟨rfl, rfl, rfl, rfl, rfl⟩ | ⟨rfl, rfl, rfl, rfl, rfl⟩ | ⟨rfl, rfl, rfl, rfl, rfl⟩ | ⟨rfl, rfl, rfl, rfl, rfl⟩ | ⟨rfl, rfl, rfl, rfl, rfl⟩ | ⟨rfl, rfl, rfl, rfl, rfl⟩ | ⟨rfl, rfl, rfl, rfl, rfl⟩ | ⟨rfl, rfl, rfl, rfl, rfl⟩ | ⟨rfl, rfl, rfl, rfl, rfl⟩ | ⟨rfl, rfl, rfl, rfl, rfl⟩ | ⟨rfl, rfl, rfl, rfl, rfl⟩ | ⟨rfl, rfl, rfl, rfl, rfl⟩ | ⟨rfl, rfl, rfl, rfl, rfl⟩ | ⟨rfl, rfl, rfl, rfl, rfl⟩ | ⟨rfl, rfl, rfl, rfl, rfl⟩ | ⟨rfl, rfl, rfl, rfl, rfl⟩
  · exact fin _ (List.mem_of_getElem? (i := 0) rfl) (by dsimp only; decide) (by dsimp only; decide)
  · exact fin _ (List.mem_of_getElem? (i := 1) rfl) (by dsimp only; decide) (by dsimp only; decide)
  · exact fin _ (List.mem_of_getElem? (i := 2) rfl) (by dsimp only; decide) (by dsimp only; decide)
  · exact fin _ (List.mem_of_getElem? (i := 3) rfl) (by dsimp only; decide) (by dsimp only; decide)
  · exact fin _ (List.mem_of_getElem? (i := 4) rfl) (by dsimp only; decide) (by dsimp only; decide)
  · exact fin _ (List.mem_of_getElem? (i := 5) rfl) (by dsimp only; decide) (by dsimp only; decide)
  · exact fin _ (List.mem_of_getElem? (i := 6) rfl) (by dsimp only; decide) (by dsimp only; decide)
  · exact fin _ (List.mem_of_getElem? (i := 7) rfl) (by dsimp only; decide) (by dsimp only; decide)
  · exact fin _ (List.mem_of_getElem? (i := 8) rfl) (by dsimp only; decide) (by dsimp only; decide)
  · exact fin _ (List.mem_of_getElem? (i := 9) rfl) (by dsimp only; decide) (by dsimp only; decide)
  · exact fin _ (List.mem_of_getElem? (i := 10) rfl) (by dsimp only; decide) (by dsimp only; decide)
  · exact fin _ (List.mem_of_getElem? (i := 11) rfl) (by dsimp only; decide) (by dsimp only; decide)
  · exact fin _ (List.mem_of_getElem? (i := 12) rfl) (by dsimp only; decide) (by dsimp only; decide)
  · exact fin _ (List.mem_of_getElem? (i := 13) rfl) (by dsimp only; decide) (by dsimp only; decide)
  · exact fin _ (List.mem_of_getElem? (i := 14) rfl) (by dsimp only; decide) (by dsimp only; decide)
  · exact fin _ (List.mem_of_getElem? (i := 15) rfl) (by dsimp only; decide) (by dsimp only; decide)
  · exact fin _ (List.mem_of_getElem? (i := 16) rfl) (by dsimp only; decide) (by dsimp only; decide)
  · exact fin _ (List.mem_of_getElem? (i := 17) rfl) (by dsimp only; decide) (by dsimp only; decide)
  · exact fin _ (List.mem_of_getElem? (i := 18) rfl) (by dsimp only; decide) (by dsimp only; decide)
  · exact fin _ (List.mem_of_getElem? (i := 19) rfl) (by dsimp only; decide) (by dsimp only; decide)

theorem C52_digest_sizes : ∀ d ∈ Spec.digestSizes, gost_digests d.1 = (1, some d) := by decide

-- the tables are not empty: 20 ciphers, 8 digests
example : (Spec.cipherSizes 1200).length = 20 ∧ Spec.digestSizes.length = 8 := ⟨rfl, rfl⟩

end Gost
