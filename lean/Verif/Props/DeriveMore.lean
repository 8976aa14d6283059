import Verif.Props.Derive

/-!
# C59, continued: text controls and copies of a context
-/

namespace Gost

open Spec (leNat beNat leBytes beBytes ecOf)

/-! ## Specification -/

/-- Calls on a context: a control, a control in text form, a copy (`EVP_PKEY_CTX_dup`, going on with the copy). -/
inductive CtxCall where
  | num (op : PkeyCtrl)
  | text (type value : List Char)
  | copy

/-- Short names of the parameter sets of 256 bits. -/
def shortNames256 : List (List Char × CurveNid) :=
  [(['A'], .CryptoPro_A), (['B'], .CryptoPro_B), (['C'], .CryptoPro_C), (['0'], .Test), (['X', 'A'], .CryptoPro_XchA), (['X', 'B'], .CryptoPro_XchB),
   (['T', 'C', 'A'], .tc26_256_paramSetA), (['T', 'C', 'B'], .tc26_256_paramSetB), (['T', 'C', 'C'], .tc26_256_paramSetC), (['T', 'C', 'D'], .tc26_256_paramSetD)]

/-- Short names of the parameter sets of 512 bits. -/
def shortNames512 : List (List Char × CurveNid) :=
  [(['A'], .tc26_512_paramSetA), (['B'], .tc26_512_paramSetB), (['C'], .tc26_512_paramSetC)]

/-- One call; `none` when a copy cannot be made (or NULL is used). -/
def callCtx (big : Bool) (T : TextFns) (pkey : EvpPkey) (d : PmethData) : CtxCall → Option PmethData
  | .num op => some (pkey_gost_ctrl (some pkey) d op).1
  | .text ty v => match pkey_gost_ec_ctrl_str big T (some pkey) d ty (some v) with | .crash => none | .ret d _ => some d
  | .copy => pkey_gost_copy (some pkey) d

/-- Calls one after the other. -/
def runCalls (big : Bool) (T : TextFns) (pkey : EvpPkey) : PmethData → List CtxCall → Option PmethData
  | d, [] => some d
  | d, c :: cs => (callCtx big T pkey d c).bind fun d => runCalls big T pkey d cs

/-- The UKM set by a call: the bytes given, or written in hexadecimal with "ukmhex", at most 32 of them. -/
def CtxCall.ukm (T : TextFns) : CtxCall → Option Bytes
  | .num op => ukmOf op
  | .text ty v => if ty = "ukmhex".toList then (T.hexstr2buf v).filter (fun b => b.length ≤ 32) else none
  | .copy => none

/-- The VKO digest set by a call: given by its identifier, or with "vko" by its length in bits, where 0 means none. -/
def CtxCall.vko : CtxCall → Option DgstNid
  | .num op => vkoOf op
  | .text ty v =>
    if ty = "vko".toList then
      if cAtoi v = 256 then some .r3411_2012_256 else if cAtoi v = 512 then some .r3411_2012_512 else if cAtoi v = 0 then some .undef else none
    else none
  | .copy => none

/-- The UKM and the VKO digest last set. -/
def CtxCall.lastUkm (T : TextFns) (cs : List CtxCall) : Bytes := ((cs.filterMap (CtxCall.ukm T)).getLast?).getD []
def CtxCall.lastVko (cs : List CtxCall) : DgstNid := ((cs.filterMap CtxCall.vko).getLast?).getD .undef

/-- Pointers given with a UKM point to as many bytes as announced. -/
def CtxCall.Valid : CtxCall → Prop
  | .num op => op.Valid
  | _ => True

/-! ## Text controls as controls -/

/-- What a text control amounts to. -/
theorem text_ctrl (big : Bool) (T : TextFns) (pkey : Option EvpPkey) (d : PmethData) (ty v : List Char) :
    (∃ code : Int, code ≤ 0 ∧ pkey_gost_ec_ctrl_str big T pkey d ty (some v) = .ret d code ∧ CtxCall.ukm T (.text ty v) = none ∧
      CtxCall.vko (.text ty v) = none) ∨
    (∃ op : PkeyCtrl, op.Valid ∧ pkey_gost_ec_ctrl_str big T pkey d ty (some v) = .ret (pkey_gost_ctrl pkey d op).1 1 ∧
      CtxCall.ukm T (.text ty v) = ukmOf op ∧ CtxCall.vko (.text ty v) = vkoOf op) := by
  unfold pkey_gost_ec_ctrl_str CtxCall.ukm CtxCall.vko
  by_cases h1 : ty = "paramset".toList
  · have n1 : ty ≠ "ukmhex".toList := by rw [h1]; decide
    have n2 : ty ≠ "vko".toList := by rw [h1]; decide
    simp only [if_pos h1, if_neg n1, if_neg n2]
    cases hp : (if big then paramset512 T v else paramset256 T v) with
    | none => exact Or.inl ⟨0, le_refl _, by simp⟩
    | some nid => exact Or.inr ⟨.paramset (some nid), trivial, by simp [StrRes.of, pkey_gost_ctrl, ukmOf, vkoOf]⟩
  · simp only [if_neg h1]
    unfold pkey_gost_ec_ctrl_str_common
    by_cases h2 : ty = "ukmhex".toList
    · have n2 : ty ≠ "vko".toList := by rw [h2]; decide
      simp only [if_pos h2, if_neg n2]
      cases hx : T.hexstr2buf v with
      | none => exact Or.inl ⟨0, le_refl _, by simp⟩
      | some b =>
        by_cases hb : b.length > 32
        · refine Or.inl ⟨0, le_refl _, by simp only [if_pos hb], ?_, trivial⟩
          simp only [Option.filter]; rw [if_neg]; simp; omega
        · refine Or.inr ⟨.setIv b.length (some b), by simp [PkeyCtrl.Valid], ?_, ?_, rfl⟩
          · simp only [if_neg hb, StrRes.of, pkey_gost_ctrl, if_neg (show ¬ ((b.length : Int) < 0 ∨ (b.length : Int) > 32) by omega)]
          · simp only [ukmOf, if_pos (show 0 ≤ (b.length : Int) ∧ (b.length : Int) ≤ 32 by omega)]
            simp only [Option.filter]; rw [if_pos (by simp; omega)]; simp
    · by_cases h3 : ty = "vko".toList
      · simp only [if_neg h2, if_pos h3]
        unfold vkoOfBits
        by_cases c1 : cAtoi v = 256
        · simp only [if_pos c1]
          exact Or.inr ⟨.setVko .r3411_2012_256, trivial, rfl, rfl, rfl⟩
        · by_cases c2 : cAtoi v = 512
          · simp only [if_neg c1, if_pos c2]
            exact Or.inr ⟨.setVko .r3411_2012_512, trivial, rfl, rfl, rfl⟩
          · by_cases c3 : cAtoi v = 0
            · simp only [if_neg c1, if_neg c2, if_pos c3, if_neg (show ¬ (cAtoi v ≠ 0) from fun h => h c3)]
              exact Or.inr ⟨.setVko .undef, trivial, rfl, rfl, rfl⟩
            · simp only [if_neg c1, if_neg c2, if_neg c3, if_pos (show cAtoi v ≠ 0 from c3)]
              exact Or.inl ⟨0, le_refl _, by simp⟩
      · simp only [if_neg h2, if_neg h3]
        exact Or.inl ⟨-2, by decide, by simp⟩

theorem call_after {big : Bool} {T : TextFns} {pkey : EvpPkey} {d : PmethData} {ukm : Bytes} {vko : DgstNid} (hg : pkey.group ≠ none)
    (h : After d ukm vko) (c : CtxCall) (hv : c.Valid) :
    ∃ d', callCtx big T pkey d c = some d' ∧ After d' ((c.ukm T).getD ukm) (c.vko.getD vko) := by
  cases c with
  | num op => exact ⟨_, rfl, ctrl_after h op hv⟩
  | text ty v =>
    rcases text_ctrl big T (some pkey) d ty v with ⟨code, -, h1, h2, h3⟩ | ⟨op, ho, h1, h2, h3⟩
    · refine ⟨d, ?_, ?_⟩
      · simp only [callCtx, h1]
      · rw [h2, h3]; exact h
    · refine ⟨(pkey_gost_ctrl (some pkey) d op).1, ?_, ?_⟩
      · simp only [callCtx, h1]
      · rw [h2, h3]; exact ctrl_after h op ho
  | copy =>
    refine ⟨d, ?_, h⟩
    cases hg' : pkey.group with
    | none => exact absurd hg' hg
    | some g => simp only [callCtx, pkey_gost_copy, pkey_gost_init, hg']

theorem calls_after {big : Bool} {T : TextFns} {pkey : EvpPkey} (hg : pkey.group ≠ none) (cs : List CtxCall) :
    ∀ (d : PmethData) (ukm : Bytes) (vko : DgstNid), After d ukm vko → (∀ c ∈ cs, c.Valid) →
      ∃ d', runCalls big T pkey d cs = some d' ∧
        After d' (((cs.filterMap (CtxCall.ukm T)).getLast?).getD ukm) (((cs.filterMap CtxCall.vko).getLast?).getD vko) := by
  induction cs with
  | nil => intro d ukm vko h _; exact ⟨d, rfl, h⟩
  | cons c cs ih =>
    intro d ukm vko h hv
    obtain ⟨d1, e1, a1⟩ := call_after (big := big) (T := T) hg h c (hv c List.mem_cons_self)
    obtain ⟨d2, e2, a2⟩ := ih _ _ _ a1 (fun o ho => hv o (List.mem_cons_of_mem _ ho))
    refine ⟨d2, by simp only [runCalls, e1, Option.bind_some, e2], ?_⟩
    have u1 : (((c :: cs).filterMap (CtxCall.ukm T)).getLast?).getD ukm = ((cs.filterMap (CtxCall.ukm T)).getLast?).getD ((c.ukm T).getD ukm) := by
      cases hu : c.ukm T with
      | none => rw [List.filterMap_cons_none hu]; rfl
      | some u => rw [List.filterMap_cons_some hu, getLast?_cons_getD]; rfl
    have u2 : (((c :: cs).filterMap CtxCall.vko).getLast?).getD vko = ((cs.filterMap CtxCall.vko).getLast?).getD (c.vko.getD vko) := by
      cases hu : c.vko with
      | none => rw [List.filterMap_cons_none hu]; rfl
      | some u => rw [List.filterMap_cons_some hu, getLast?_cons_getD]; rfl
    rw [u1, u2]
    exact a2

theorem derive_after {v : KxEnv} {pkey peer : EvpPkey} {r : PmethData} {ukm : Bytes} {vko : DgstNid} (h : After r ukm vko) :
    pkey_gost_ec_derive v ⟨pkey, some peer, r⟩ false = .ofKey (agreedKey v pkey peer ukm vko) := by
  obtain ⟨h1, h2, h3, h4, h5, h6⟩ := h
  unfold pkey_gost_ec_derive agreedKey
  simp only [h2, h5, h4, Bool.false_eq_true, if_false]
  by_cases hu : ukm = []
  · subst hu; simp [DeriveRes.ofKey]
  · have hul : ukm.length ≠ 0 := by simpa using hu
    rw [if_neg hul, if_neg hu]
    split
    · rfl
    split
    · rename_i h8; rw [h8] at h4; rw [h4]
    split
    · rename_i h32
      rw [h32] at h4
      rw [List.take_of_length_le (by omega)] at h4
      rw [h4]
    · rfl

/-! ## The theorems -/

/-- **C59**: the same holds when controls are given as text and when the context is copied in between: no call crashes, and the key derived
is the agreed key for the UKM and the VKO digest last set, whichever way. -/
theorem C59_derive_any_calls (big : Bool) (T : TextFns) (v : KxEnv) (pkey peer : EvpPkey) (d : PmethData)
    (hi : pkey_gost_init (some pkey) = some d) (cs : List CtxCall) (hv : ∀ c ∈ cs, c.Valid) :
    ∃ d', runCalls big T pkey d cs = some d' ∧
      pkey_gost_ec_derive v ⟨pkey, some peer, d'⟩ false = .ofKey (agreedKey v pkey peer (CtxCall.lastUkm T cs) (CtxCall.lastVko cs)) := by
  have hg : pkey.group ≠ none := by
    intro h
    rw [pkey_gost_init] at hi
    simp only [h] at hi
    cases hi
  obtain ⟨d', h1, h2⟩ := calls_after (big := big) (T := T) hg cs d [] .undef (init_after hi) hv
  exact ⟨d', h1, derive_after h2⟩

/-- **C59**: without a peer key no key is derived; the size is still reported. -/
theorem C59_no_peer (v : KxEnv) (pkey : EvpPkey) (d : PmethData) : pkey_gost_ec_derive v ⟨pkey, none, d⟩ false = .fail := by
  unfold pkey_gost_ec_derive
  simp only [Bool.false_eq_true, if_false]
  split
  · rfl
  split
  · rfl
  split
  · rfl
  split <;> rfl

/-- **C59**: a text control that fails (value 0 or negative) leaves the context as it was; the others return 1. -/
theorem C59_text_all_or_nothing (big : Bool) (T : TextFns) (pkey : Option EvpPkey) (d : PmethData) (ty v : List Char) :
    (∃ code : Int, code ≤ 0 ∧ pkey_gost_ec_ctrl_str big T pkey d ty (some v) = .ret d code) ∨
    (∃ d', pkey_gost_ec_ctrl_str big T pkey d ty (some v) = .ret d' 1) := by
  rcases text_ctrl big T pkey d ty v with ⟨code, h0, h1, -, -⟩ | ⟨op, -, h1, -, -⟩
  · exact Or.inl ⟨code, h0, h1⟩
  · exact Or.inr ⟨_, h1⟩

theorem upper_cases (c : Char) (l : List Char) (s : List Char) (h : s.map Char.toUpper = c :: l) :
    ∃ a t, s = a :: t ∧ a.toUpper = c ∧ t.map Char.toUpper = l := by
  cases s with
  | nil => cases h
  | cons a t => exact ⟨a, t, rfl, (List.cons.inj h).1, (List.cons.inj h).2⟩

/-- **C59**: the short names select their parameter sets, in upper or lower case. -/
theorem C59_paramset_names (T : TextFns) (pkey : Option EvpPkey) (d : PmethData) (n : List Char) (c : CurveNid) (s : List Char)
    (hs : s.map Char.toUpper = n) :
    ((n, c) ∈ shortNames256 → pkey_gost_ec_ctrl_str false T pkey d "paramset".toList (some s) = .ret { d with sign_param_nid := some c } 1) ∧
    ((n, c) ∈ shortNames512 → pkey_gost_ec_ctrl_str true T pkey d "paramset".toList (some s) = .ret { d with sign_param_nid := some c } 1) := by
  have one : ∀ x, s.map Char.toUpper = [x] → ∃ a, s = [a] ∧ a.toUpper = x := by
    intro x h
    obtain ⟨a, t, rfl, h1, h2⟩ := upper_cases _ _ _ h
    rw [List.map_eq_nil_iff] at h2
    exact ⟨a, by rw [h2], h1⟩
  have two : ∀ x y, s.map Char.toUpper = [x, y] → ∃ a b, s = [a, b] ∧ a.toUpper = x ∧ b.toUpper = y := by
    intro x y h
    obtain ⟨a, t, rfl, h1, h2⟩ := upper_cases _ _ _ h
    obtain ⟨b, t, rfl, h3, h4⟩ := upper_cases _ _ _ h2
    rw [List.map_eq_nil_iff] at h4
    exact ⟨a, b, by rw [h4], h1, h3⟩
  have three : ∀ x y z, s.map Char.toUpper = [x, y, z] → ∃ a b c, s = [a, b, c] ∧ a.toUpper = x ∧ b.toUpper = y ∧ c.toUpper = z := by
    intro x y z h
    obtain ⟨a, t, rfl, h1, h2⟩ := upper_cases _ _ _ h
    obtain ⟨b, t, rfl, h3, h4⟩ := upper_cases _ _ _ h2
    obtain ⟨c, t, rfl, h5, h6⟩ := upper_cases _ _ _ h4
    rw [List.map_eq_nil_iff] at h6
    exact ⟨a, b, c, by rw [h6], h1, h3, h5⟩
  constructor
  · intro hm
    simp only [shortNames256, List.mem_cons, Prod.mk.injEq, List.not_mem_nil, or_false] at hm
    have key : paramset256 T s = some c := by
      rcases hm with ⟨rfl, rfl⟩ | ⟨rfl, rfl⟩ | ⟨rfl, rfl⟩ | ⟨rfl, rfl⟩ | ⟨rfl, rfl⟩ | ⟨rfl, rfl⟩ | ⟨rfl, rfl⟩ | ⟨rfl, rfl⟩ | ⟨rfl, rfl⟩ | ⟨rfl, rfl⟩
      all_goals first
        | (obtain ⟨a, rfl, h1⟩ := one _ hs; simp only [paramset256, h1])
        | (obtain ⟨a, b, rfl, h1, h2⟩ := two _ _ hs; simp only [paramset256, h1, h2, if_true])
        | (obtain ⟨a, b, c, rfl, h1, h2, h3⟩ := three _ _ _ hs; simp only [paramset256, h1, h2, h3, and_self, if_true])
    unfold pkey_gost_ec_ctrl_str
    simp only [if_true, Bool.false_eq_true, if_false, key]
    rfl
  · intro hm
    simp only [shortNames512, List.mem_cons, Prod.mk.injEq, List.not_mem_nil, or_false] at hm
    have key : paramset512 T s = some c := by
      rcases hm with ⟨rfl, rfl⟩ | ⟨rfl, rfl⟩ | ⟨rfl, rfl⟩
      all_goals (obtain ⟨a, rfl, h1⟩ := one _ hs; simp only [paramset512, h1])
    unfold pkey_gost_ec_ctrl_str
    simp only [if_true, key]
    rfl

theorem table256 : ∀ e ∈ R3410_2001_paramset, ∃ e', gost_nid2params e.nid = some e' ∧ e'.p < 2 ^ 256 := by decide +kernel

theorem table512 : ∀ e ∈ R3410_2012_512_paramset, ∃ e', gost_nid2params e.nid = some e' ∧ 2 ^ 256 ≤ e'.p := by decide +kernel

theorem byText_mem {T : TextFns} {t : List EcParams} {s : List Char} {c : CurveNid} (h : paramByText T t s = some c) :
    ∃ e ∈ t, e.nid = c := by
  unfold paramByText at h
  split at h
  · cases h
  · split at h
    · rename_i ha
      cases h
      simpa using ha
    · cases h

theorem short256 : ∀ x ∈ shortNames256, ∃ e', gost_nid2params x.2 = some e' ∧ e'.p < 2 ^ 256 := by decide +kernel

theorem short512 : ∀ x ∈ shortNames512, ∃ e', gost_nid2params x.2 = some e' ∧ 2 ^ 256 ≤ e'.p := by decide +kernel

/-- **C59**: whatever text is accepted as a parameter set, it selects a curve of the engine with the length of the method: 256 bits or 512
bits. -/
theorem C59_paramset_length (big : Bool) (T : TextFns) (pkey : Option EvpPkey) (d d' : PmethData) (s : List Char) (code : Int)
    (h : pkey_gost_ec_ctrl_str big T pkey d "paramset".toList (some s) = .ret d' code) (hc : 0 < code) :
    ∃ c e, d' = { d with sign_param_nid := some c } ∧ gost_nid2params c = some e ∧ (e.p < 2 ^ 256 ↔ big = false) := by
  unfold pkey_gost_ec_ctrl_str at h
  simp only [if_true] at h
  cases big with
  | false =>
    simp only [Bool.false_eq_true, if_false] at h
    cases hp : paramset256 T s with
    | none => rw [hp] at h; cases h; exact absurd hc (by decide)
    | some c =>
      rw [hp] at h
      simp only [StrRes.of, pkey_gost_ctrl, StrRes.ret.injEq] at h
      have : ∃ e, gost_nid2params c = some e ∧ e.p < 2 ^ 256 := by
        have hshort : (∃ n, (n, c) ∈ shortNames256) ∨ paramByText T R3410_2001_paramset s = some c := by
          unfold paramset256 at hp
          split at hp
          · split at hp <;> first | (cases hp; done) | (cases hp; left; exact ⟨_, by simp [shortNames256]; rfl⟩)
          · split at hp
            · split at hp <;> first | (cases hp; done) | (cases hp; left; exact ⟨_, by simp [shortNames256]; rfl⟩)
            · exact Or.inr hp
          · split at hp
            · split at hp <;> first | (cases hp; done) | (cases hp; left; exact ⟨_, by simp [shortNames256]; rfl⟩)
            · exact Or.inr hp
          · exact Or.inr hp
        rcases hshort with ⟨n, hn⟩ | hb
        · exact short256 _ hn
        · obtain ⟨e, he, rfl⟩ := byText_mem hb
          exact table256 e he
      obtain ⟨e, he, hlt⟩ := this
      exact ⟨c, e, h.1.symm, he, ⟨fun _ => rfl, fun _ => hlt⟩⟩
  | true =>
    simp only [if_true] at h
    cases hp : paramset512 T s with
    | none => rw [hp] at h; cases h; exact absurd hc (by decide)
    | some c =>
      rw [hp] at h
      simp only [StrRes.of, pkey_gost_ctrl, StrRes.ret.injEq] at h
      have : ∃ e, gost_nid2params c = some e ∧ 2 ^ 256 ≤ e.p := by
        have hshort : (∃ n, (n, c) ∈ shortNames512) ∨ paramByText T R3410_2012_512_paramset s = some c := by
          unfold paramset512 at hp
          split at hp
          · split at hp <;> first | (cases hp; done) | (cases hp; left; exact ⟨_, by simp [shortNames512]; rfl⟩)
          · exact Or.inr hp
        rcases hshort with ⟨n, hn⟩ | hb
        · exact short512 _ hn
        · obtain ⟨e, he, rfl⟩ := byText_mem hb
          exact table512 e he
      obtain ⟨e, he, hlt⟩ := this
      exact ⟨c, e, h.1.symm, he, by simp; omega⟩

/-! ## Findings -/

/-- **C59**: an identifier (a text of more than three characters) of one of the parameter sets B, C and D of 256 bits is refused, although the
engine has these curves and accepts their short names. -/
theorem C59_identifiers_refused (T : TextFns) (pkey : Option EvpPkey) (d : PmethData) (s : List Char) (hs : 3 < s.length) (c : CurveNid)
    (hc : c = .tc26_256_paramSetB ∨ c = .tc26_256_paramSetC ∨ c = .tc26_256_paramSetD) (ht : T.txt2nid s = some c) :
    pkey_gost_ec_ctrl_str false T pkey d "paramset".toList (some s) = .ret d 0 ∧ ∃ e, gost_nid2params c = some e := by
  have hp : paramset256 T s = paramByText T R3410_2001_paramset s := by
    match s, hs with
    | _ :: _ :: _ :: _ :: _, _ => rfl
  have hn : R3410_2001_paramset.any (fun e => e.nid = c) = false := by
    rcases hc with rfl | rfl | rfl <;> decide +kernel
  have hb : paramByText T R3410_2001_paramset s = none := by
    unfold paramByText
    simp only [ht, hn, Bool.false_eq_true, if_false]
  constructor
  · unfold pkey_gost_ec_ctrl_str
    simp only [if_true, Bool.false_eq_true, if_false, hp, hb]
  · rcases hc with rfl | rfl | rfl
    · exact ⟨_, rfl⟩
    · exact ⟨_, rfl⟩
    · exact ⟨_, rfl⟩

/-- **C59**: a text that is not a number, given for the length of the VKO digest, is accepted and switches an earlier choice off. -/
theorem C59_vko_not_a_number (big : Bool) (T : TextFns) (pkey : Option EvpPkey) (d : PmethData) (c : Char) (s : List Char) (hd : ¬ c.isDigit)
    (hc : c ≠ '-') (hc' : c ≠ '+') (hsp : cIsSpace c = false) :
    pkey_gost_ec_ctrl_str big T pkey d "vko".toList (some (c :: s)) = .ret { d with vko_dgst_nid := .undef } 1 := by
  have h0 : cAtoi (c :: s) = 0 := by
    unfold cAtoi
    rw [List.dropWhile_cons_of_neg (by simp [hsp])]
    unfold atoiSigned
    split
    · rename_i heq; cases heq; exact absurd rfl hc
    · rename_i heq; cases heq; exact absurd rfl hc'
    · simp [atoiDigits, hd]
  unfold pkey_gost_ec_ctrl_str
  rw [if_neg (by decide)]
  unfold pkey_gost_ec_ctrl_str_common
  rw [if_neg (by decide), if_pos rfl]
  simp only [h0]
  rfl

/-- **C59**: "ukmhex" and "vko" without a value use NULL as a string. -/
theorem C59_null_text_crashes (big : Bool) (T : TextFns) (pkey : Option EvpPkey) (d : PmethData) :
    pkey_gost_ec_ctrl_str big T pkey d "ukmhex".toList none = .crash ∧ pkey_gost_ec_ctrl_str big T pkey d "vko".toList none = .crash :=
  ⟨rfl, rfl⟩

/-! ## Examples -/

/-- Setting a UKM of 32 bytes, then one of 8 by text, then a copy, then VKO with 512 bits: the last settings count. -/
example (T : TextFns) (hT : T.hexstr2buf "0102030405060708".toList = some [1, 2, 3, 4, 5, 6, 7, 8]) :
    let cs : List CtxCall := [.num (.setIv 32 (some (List.replicate 32 9))), .text "ukmhex".toList "0102030405060708".toList, .copy,
      .text "vko".toList " 512".toList, .text "vko".toList "257".toList, .num (.setIv 40 (some (List.replicate 40 9)))]
    (∀ c ∈ cs, c.Valid) ∧ CtxCall.lastUkm T cs = [1, 2, 3, 4, 5, 6, 7, 8] ∧ CtxCall.lastVko cs = .r3411_2012_512 := by
  intro cs
  refine ⟨?_, ?_, ?_⟩
  · intro c hc
    simp only [cs, List.mem_cons, List.not_mem_nil, or_false] at hc
    rcases hc with rfl | rfl | rfl | rfl | rfl | rfl
    · show (32 : Int).toNat ≤ (List.replicate 32 (9 : UInt8)).length; decide
    · trivial
    · trivial
    · trivial
    · trivial
    · show (40 : Int).toNat ≤ (List.replicate 40 (9 : UInt8)).length; decide
  · have e : CtxCall.ukm T (.text "ukmhex".toList "0102030405060708".toList) = some [1, 2, 3, 4, 5, 6, 7, 8] := by
      simp only [CtxCall.ukm, if_true, hT]; rfl
    have e1 : CtxCall.ukm T (.text "vko".toList " 512".toList) = none := rfl
    have e2 : CtxCall.ukm T (.text "vko".toList "257".toList) = none := rfl
    have e3 : CtxCall.ukm T (.num (.setIv 40 (some (List.replicate 40 9)))) = none := rfl
    have e4 : CtxCall.ukm T .copy = none := rfl
    have e5 : CtxCall.ukm T (.num (.setIv 32 (some (List.replicate 32 9)))) = some (List.replicate 32 9) := rfl
    simp only [CtxCall.lastUkm, cs, List.filterMap_cons, List.filterMap_nil, e, e1, e2, e3, e4, e5]
    rfl
  · decide

/-- Two parties on any curve with VKO and with KEG. -/
example (c : CurveNid) (e : EcParams) (he : gost_nid2params c = some e) (hc : c ≠ .tc26_512_paramSetTest) (big : Bool) :
    let A : EvpPkey := ⟨.gost2012_256, some (groupOf e c), some 1, some (some (e.x, e.y))⟩
    let ops : List PkeyCtrl := if big then [.setIv 32 (some (List.replicate 32 9))] else
      [.setVko .r3411_2012_512, .setIv 8 (some [1, 0, 0, 0, 0, 0, 0, 0])]
    ∃ k, pkey_gost_ec_derive (witEnv .w64) ⟨A, some A.public, runCtrls (some A) { PmethData.zero with sign_param_nid := some c } ops⟩ false = .key k ∧
      pkey_gost_ec_derive (witEnv .w32) ⟨A, some A.public, runCtrls (some A) { PmethData.zero with sign_param_nid := some c } ops⟩ false = .key k := by
  intro A ops
  have hA : IsKeyPair c A := pair_exists c e he hc _
  have hi : pkey_gost_init (some A) = some { PmethData.zero with sign_param_nid := some c } := rfl
  have hq := (cofactor_facts e (selected_mem he)).2.2.2.2
  have hv : ∀ op ∈ ops, op.Valid := by
    cases big with
    | true =>
      intro op ho
      obtain rfl : op = _ := List.mem_singleton.1 ho
      show (32 : Int).toNat ≤ (List.replicate 32 (9 : UInt8)).length; decide
    | false =>
      intro op ho
      simp only [ops, Bool.false_eq_true, if_false, List.mem_cons, List.not_mem_nil, or_false] at ho
      rcases ho with rfl | rfl
      · trivial
      · show (8 : Int).toNat ≤ ([1, 0, 0, 0, 0, 0, 0, 0] : Bytes).length; decide
  obtain ⟨h1, h2⟩ := C59_parties_agree (witEnv .w64) (witEnv .w32) ⟨rfl, rfl, rfl, rfl⟩ c A A hA hA rfl _ _ hi hi ops ops hv hv rfl rfl
  obtain ⟨k, hk⟩ := h2 (by
    cases big with
    | true => exact Or.inl ⟨by decide, by decide, Or.inl rfl⟩
    | false =>
      refine Or.inr ⟨by decide, by decide, ?_⟩
      intro e' he' hd
      obtain rfl : e = e' := Option.some.inj (he.symm.trans he')
      have hl : leNat (lastUkm ops) = 1 := by decide
      rw [hl] at hd
      have := Nat.le_of_dvd (by decide) hd
      omega)
  exact ⟨k, hk, h1 ▸ hk⟩

/-- The number written in decimal digits. -/
def Spec.decimal (ds : List Char) : Nat := ds.foldl (fun n c => 10 * n + (c.toNat - '0'.toNat)) 0

theorem atoiDigits_eq (ds rest : List Char) (hd : ∀ c ∈ ds, c.isDigit) (hr : ∀ c, rest.head? = some c → c.isDigit = false) (n : Nat) :
    atoiDigits (ds ++ rest) n = ds.foldl (fun n c => 10 * n + (c.toNat - '0'.toNat)) n := by
  induction ds generalizing n with
  | nil =>
    cases rest with
    | nil => rfl
    | cons c r => simp [atoiDigits, hr c rfl]
  | cons c ds ih =>
    rw [List.cons_append, atoiDigits, if_pos (hd c List.mem_cons_self), ih (fun c hc => hd c (List.mem_cons_of_mem _ hc))]
    rfl

/-- **C59**: the length of the VKO digest given as text is the decimal number at its start (after spaces; text behind the number does not
matter): 256 and 512 select the digests, 0 switches them off, other numbers are refused and change nothing. -/
theorem C59_vko_number (big : Bool) (T : TextFns) (pkey : Option EvpPkey) (d : PmethData) (spaces ds rest : List Char)
    (hs : ∀ c ∈ spaces, cIsSpace c) (hne : ds ≠ []) (hd : ∀ c ∈ ds, c.isDigit) (hr : ∀ c, rest.head? = some c → c.isDigit = false) :
    pkey_gost_ec_ctrl_str big T pkey d "vko".toList (some (spaces ++ ds ++ rest)) =
      if Spec.decimal ds = 256 then .ret { d with vko_dgst_nid := .r3411_2012_256 } 1
      else if Spec.decimal ds = 512 then .ret { d with vko_dgst_nid := .r3411_2012_512 } 1
      else if Spec.decimal ds = 0 then .ret { d with vko_dgst_nid := .undef } 1
      else .ret d 0 := by
  have h0 : cAtoi (spaces ++ ds ++ rest) = (Spec.decimal ds : Int) := by
    unfold cAtoi
    obtain ⟨c, ds', rfl⟩ := List.exists_cons_of_ne_nil hne
    have hc := hd c List.mem_cons_self
    have hnd : ∀ x : Char, x.isDigit = true → cIsSpace x = false ∧ x ≠ '-' ∧ x ≠ '+' := by
      intro x hx
      refine ⟨?_, ?_, ?_⟩
      · unfold cIsSpace
        simp only [Bool.or_eq_false_iff, decide_eq_false_iff_not]
        refine ⟨⟨⟨⟨⟨?_, ?_⟩, ?_⟩, ?_⟩, ?_⟩, ?_⟩ <;> (rintro rfl; exact absurd hx (by decide))
      · rintro rfl; exact absurd hx (by decide)
      · rintro rfl; exact absurd hx (by decide)
    obtain ⟨n1, n2, n3⟩ := hnd c hc
    rw [List.append_assoc, List.dropWhile_append_of_pos hs, List.cons_append, List.dropWhile_cons_of_neg (by simp [n1]), ← List.cons_append]
    unfold atoiSigned
    split
    · rename_i heq; cases heq; exact absurd rfl n2
    · rename_i heq; cases heq; exact absurd rfl n3
    · rw [atoiDigits_eq _ _ hd hr]; rfl
  unfold pkey_gost_ec_ctrl_str
  rw [if_neg (by decide)]
  unfold pkey_gost_ec_ctrl_str_common
  rw [if_neg (by decide), if_pos rfl]
  simp only [h0]
  generalize Spec.decimal ds = n
  unfold vkoOfBits
  by_cases h1 : n = 256
  · subst h1; rfl
  by_cases h2 : n = 512
  · subst h2; rfl
  by_cases h3 : n = 0
  · subst h3; rfl
  rw [if_neg h1, if_neg h2, if_neg h3, if_neg (by omega), if_neg (by omega), if_pos (by omega)]

example : pkey_gost_ec_ctrl_str false ⟨fun _ => none, fun _ => none⟩ none PmethData.zero "vko".toList (some " 512bit".toList) =
    .ret { PmethData.zero with vko_dgst_nid := .r3411_2012_512 } 1 :=
  C59_vko_number false _ none PmethData.zero [' '] ['5', '1', '2'] "bit".toList (by decide) (by decide) (by decide) (by decide)

/-- **C59**: with a peer key whose group has another name no key is derived, whatever the UKM and the digest. -/
theorem C59_other_curve_refused (v : KxEnv) (pkey peer : EvpPkey) (d : PmethData) (g gp : EcGroupRec) (h1 : pkey.group = some g)
    (h2 : peer.group = some gp) (h : gp.name ≠ g.name) : pkey_gost_ec_derive v ⟨pkey, some peer, d⟩ false = .fail := by
  have hv : ∀ nid u, vkoOn v nid peer pkey u = none := by
    intro nid u
    unfold vkoOn
    rw [h1, h2]
    split
    · rename_i e1 e2 e3 e4
      cases e1; cases e3
      rw [if_neg h]
    · rfl
  have hk : ∀ u nid, kegOn v u nid peer pkey = none := by
    intro u nid
    unfold kegOn
    rw [h1, h2]
    split
    · rename_i e1 e2 e3 e4
      cases e1; cases e3
      rw [if_neg h]
    · rfl
  unfold pkey_gost_ec_derive
  simp only [Bool.false_eq_true, if_false, hv, hk, DeriveRes.ofKey]
  split
  · rfl
  split
  · rfl
  split
  · rfl
  split <;> rfl

end Gost
