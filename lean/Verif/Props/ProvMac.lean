import Verif.Model.ProvMac
import Verif.Props.MacPkey
import Verif.Lemmas.KeyWrap

/-!
# C63: MACs through the provider

A context of one of the provider's five MACs is used by any sequence of calls; then a key is set and a message authenticated.
-/

namespace Gost
open Spec

attribute [local irreducible] longToInt

/-! ## Specification -/

/-- A call on a context; `dup`: the caller goes on with a duplicate. -/
inductive PmOp where
  | init (key : Option Bytes) (p : ProvMacParams)
  | setParams (p : ProvMacParams)
  | update (d : Bytes)
  | final
  | dup

def pmStep (X : Crypto) (g : ProvMacCtx) : PmOp → Option ProvMacCtx
  | .init key p => (prov_mac_init g key p).map (·.1)
  | .setParams p => (prov_mac_set_ctx_params g p).map (·.1)
  | .update d => some (prov_mac_update g d).1
  | .final => (prov_mac_final X g).map (·.ctx)
  | .dup => some (prov_mac_dupctx g)

/-- Any history of calls, whatever they return; `none`: one of them has undefined behaviour. -/
def pmRun (X : Crypto) : ProvMacCtx → List PmOp → Option ProvMacCtx
  | g, [] => some g
  | g, o :: os => (pmStep X g o).bind fun g => pmRun X g os

/-- The MAC size in force after a history: the last one given with any call, readable or not otherwise; a duplicate starts again with
the default. -/
def pmSize (dflt : Nat) : Nat → List PmOp → Nat
  | s, [] => s
  | s, .init _ p :: os => pmSize dflt (p.size.join.getD s) os
  | s, .setParams p :: os => pmSize dflt (p.size.join.getD s) os
  | _, .dup :: os => pmSize dflt dflt os
  | s, .update _ :: os => pmSize dflt s os
  | s, .final :: os => pmSize dflt s os

/-- How a key is given: with `EVP_MAC_init`, or as parameter "key" of `EVP_MAC_init` or `EVP_MAC_CTX_set_params`; each maybe with a
size. -/
inductive PmStart where
  | initKey (size : Option Nat)
  | initParam (size : Option Nat)
  | param (size : Option Nat)

def pmStart (g : ProvMacCtx) (key : Bytes) : PmStart → Option (ProvMacCtx × Bool)
  | .initKey s => prov_mac_init g (some key) { size := s.map some }
  | .initParam s => prov_mac_init g none { size := s.map some, key := some (some key) }
  | .param s => prov_mac_set_ctx_params g { size := s.map some, key := some (some key) }

def PmStart.size : PmStart → Option Nat
  | .initKey s | .initParam s | .param s => s

/-- Calls while a message is authenticated: data, another size, and `EVP_MAC_init` without a key. -/
inductive PmBody where
  | data (x : Bytes)
  | size (n : Nat)
  | reinit (size : Option Nat)

/-- The message calls, all of which have to succeed. -/
def pmBody : ProvMacCtx → List PmBody → Option ProvMacCtx
  | g, [] => some g
  | g, .data x :: os => if (prov_mac_update g x).2 then pmBody (prov_mac_update g x).1 os else none
  | g, .size n :: os =>
    match prov_mac_set_ctx_params g { size := some (some n) } with
    | some (g, true) => pmBody g os
    | _ => none
  | g, .reinit s :: os =>
    match prov_mac_init g none { size := s.map some } with
    | some (g, true) => pmBody g os
    | _ => none

/-- The pieces of the message; pieces without bytes do not reach the digest. -/
def PmBody.chunks : List PmBody → List Bytes
  | [] => []
  | .data x :: os => if x = [] then chunks os else x :: chunks os
  | _ :: os => chunks os

/-- The size given by a message call. -/
def PmBody.sizeOf : PmBody → Option Nat
  | .data _ => none
  | .size n => some n
  | .reinit s => s

/-- The longest MAC. -/
def provMacMax : MacNid → Nat
  | .gost28147_mac | .gost_mac_12 | .magma_mac => 8
  | .grasshopper_mac | .kuz_omac_acpkm => 16
  | .magma_omac_acpkm | .other => 0

/-- The blocks the GOST 28147-89 MAC digest authenticates for a message given in pieces: those of the standard, but for C18's
exception. -/
def mac89Blocks (chunks : List Bytes) : List Bytes :=
  if chunks.flatten.length = 8 ∧ chunks.getLast? ≠ some chunks.flatten then [chunks.flatten] else macBlocks chunks.flatten

/-- The full MAC of a message given in pieces. -/
def provMac (X : Crypto) (nid : MacNid) (key : Bytes) (chunks : List Bytes) : Bytes :=
  match nid with
  | .gost28147_mac => macMeshFold (M89 (boxOf .cryptoProA)) (mesh89 (boxOf .cryptoProA)) key 0 (zeros 8) (mac89Blocks chunks)
  | .gost_mac_12 => macMeshFold (M89 (boxOf .tc26Z)) (mesh89 (boxOf .tc26Z)) key 0 (zeros 8) (mac89Blocks chunks)
  | nid => stdMac X nid none key chunks.flatten

/-- The number of bytes written for a size asked for: `int` keeps the low 32 bits of it; if that is not a length of this MAC, the
default. -/
def provEffSize (nid : MacNid) (size : Nat) : Nat :=
  if 1 ≤ longToInt size ∧ longToInt size ≤ provMacMax nid then (longToInt size).toNat else provMacSize nid

/-! ## The shape of contexts -/

/-- The digest data of a context of the given MAC. -/
def PmShape : MacNid → MacMd → Prop
  | .gost28147_mac, .imit _ b => b = Gost28147_CryptoProParamSetA
  | .gost_mac_12, .imit _ b => b = Gost28147_TC26ParamSetZ
  | .magma_mac, .omac c => c.cipher_name = .magma
  | .grasshopper_mac, .omac c => c.cipher_name = .kuznyechik
  | .kuz_omac_acpkm, .acpkm _ => True
  | _, _ => False

theorem shape_setKey {nid : MacNid} {m : MacMd} (h : PmShape nid m) (k : MacSetKey) : PmShape nid (m.setKey k).1 := by
  cases nid <;> cases m <;> simp only [PmShape, MacMd.setKey] at h ⊢ <;> try exact h
  all_goals
    unfold omac_set_key
    simp only
    split <;> exact h

theorem shape_reinit {nid : MacNid} {m : MacMd} (h : PmShape nid m) : PmShape nid m.reinit := by
  cases nid <;> cases m <;> simp only [PmShape, MacMd.reinit] at h ⊢ <;> exact h

theorem shape_wipe {nid : MacNid} {m : MacMd} (h : PmShape nid m) : PmShape nid m.wipe := by
  cases nid <;> cases m <;> simp only [PmShape, MacMd.wipe] at h ⊢ <;> exact h

theorem shape_xofLen {nid : MacNid} {m : MacMd} (h : PmShape nid m) (n : Int) : PmShape nid (m.xofLen n).1 := by
  cases nid <;> cases m <;> simp only [PmShape, MacMd.xofLen] at h ⊢ <;> try exact h
  all_goals
    unfold omac_xof_len
    split <;> exact h

theorem shape_update {nid : MacNid} {m : MacMd} (h : PmShape nid m) (d : Bytes) : PmShape nid (m.update d).1 := by
  cases nid <;> cases m <;> simp only [PmShape, MacMd.update] at h ⊢ <;> try exact h
  · unfold omac_imit_update
    split <;> exact h
  · unfold omac_imit_update
    split <;> exact h
  · rename_i c
    cases omac_acpkm_imit_update c d <;> exact h

/-- A context of the given MAC with the given size. -/
def PmOk (nid : MacNid) (size : Nat) (g : ProvMacCtx) : Prop := g.nid = nid ∧ g.mac_size = size ∧ PmShape nid g.m

theorem ok_setKey {nid : MacNid} {s : Nat} {g g' : ProvMacCtx} (h : PmOk nid s g) (k : Bytes) (r : Bool)
    (e : provSetKey g k = some (g', r)) : PmOk nid s g' := by
  unfold provSetKey at e
  split at e
  · cases e; exact ⟨h.1, h.2.1, shape_setKey h.2.2 _⟩
  · split at e
    · cases e
    · cases e; exact ⟨h.1, h.2.1, shape_reinit h.2.2⟩

theorem ok_keyMesh {nid : MacNid} {s : Nat} {g g' : ProvMacCtx} (h : PmOk nid s g) (N T : Int) (r : Bool)
    (e : provKeyMesh g N T = some (g', r)) : PmOk nid s g' := by
  unfold provKeyMesh at e
  split at e
  · cases e; exact h
  · cases e; exact h
  · rename_i c hm
    split at e
    · cases e
    · cases e
      refine ⟨h.1, h.2.1, ?_⟩
      have := h.2.2
      rw [hm] at this
      cases nid <;> exact this

theorem ok_mesh {nid : MacNid} {s : Nat} {g g' : ProvMacCtx} (h : PmOk nid s g) (a b : Option (Option Nat)) (r : Bool)
    (e : provParamMesh g a b = some (g', r)) : PmOk nid s g' := by
  unfold provParamMesh at e
  split at e
  · cases e; exact h
  · cases e; exact h
  · cases e; exact h
  · exact ok_keyMesh h _ _ r e
  · exact ok_keyMesh h _ _ r e

theorem ok_params2 {nid : MacNid} {s : Nat} {g g' : ProvMacCtx} (h : PmOk nid s g) (p : ProvMacParams) (r : Bool)
    (e : provSetParams2 g p = some (g', r)) : PmOk nid s g' := by
  have hx : PmOk nid s (provParamXof g p.xof).1 := by
    unfold provParamXof
    split <;> exact h
  unfold provSetParams2 at e
  split at e
  · exact ok_mesh hx _ _ r e
  · cases e; exact hx

theorem ok_setParams {nid : MacNid} {s : Nat} {g g' : ProvMacCtx} (h : PmOk nid s g) (p : ProvMacParams) (r : Bool)
    (e : prov_mac_set_ctx_params g p = some (g', r)) : PmOk nid (p.size.join.getD s) g' := by
  have hs : PmOk nid (p.size.join.getD s) (provParamSize g p.size).1 := by
    unfold provParamSize
    split <;> rename_i hp <;> rw [hp]
    · exact h
    · exact h
    · exact ⟨h.1, rfl, h.2.2⟩
  unfold prov_mac_set_ctx_params at e
  split at e
  · have hk : ∀ g' r, provParamKey (provParamSize g p.size).1 p.key = some (g', r) → PmOk nid (p.size.join.getD s) g' := by
      intro g' r e
      unfold provParamKey at e
      split at e
      · cases e; exact hs
      · cases e; exact hs
      · exact ok_setKey hs _ r e
    split at e
    · cases e
    · rename_i g1 hg1
      cases e; exact hk _ _ hg1
    · rename_i g1 hg1
      exact ok_params2 (hk _ _ hg1) p r e
  · cases e; exact hs

theorem ok_init {nid : MacNid} {s : Nat} {g g' : ProvMacCtx} (h : PmOk nid s g) (key : Option Bytes) (p : ProvMacParams) (r : Bool)
    (e : prov_mac_init g key p = some (g', r)) : PmOk nid (p.size.join.getD s) g' := by
  unfold prov_mac_init at e
  split at e
  · cases e
  · rename_i g1 hg1
    cases e; exact ok_setParams h p _ hg1
  · rename_i g1 hg1
    have := ok_setParams h p _ hg1
    split at e
    · cases e; exact this
    · exact ok_setKey this _ r e

theorem ok_final {nid : MacNid} {s : Nat} {g : ProvMacCtx} (X : Crypto) (h : PmOk nid s g) (o : ProvMacOut)
    (e : prov_mac_final X g = some o) : PmOk nid s o.ctx := by
  unfold prov_mac_final at e
  split at e
  · cases e
  · rename_i m hm
    cases e
    refine ⟨h.1, h.2.1, shape_wipe ?_⟩
    unfold provXofLen at hm
    split at hm
    · cases hm
    · cases hm
    · cases hm
      exact shape_xofLen h.2.2 _

/-- Every history leads to a context of the same MAC with the size last given. -/
theorem ok_run (X : Crypto) {nid : MacNid} (os : List PmOp) {s : Nat} {g g' : ProvMacCtx} (h : PmOk nid s g)
    (e : pmRun X g os = some g') : PmOk nid (pmSize (provMacSize nid) s os) g' := by
  induction os generalizing s g with
  | nil => cases e; exact h
  | cons o os ih =>
    rw [pmRun] at e
    obtain ⟨g1, h1, h2⟩ := Option.bind_eq_some_iff.mp e
    cases o with
    | init k p =>
      obtain ⟨⟨a, r⟩, ha, hb⟩ := Option.map_eq_some_iff.mp h1
      subst hb
      exact ih (ok_init h k p r ha) h2
    | setParams p =>
      obtain ⟨⟨a, r⟩, ha, hb⟩ := Option.map_eq_some_iff.mp h1
      subst hb
      exact ih (ok_setParams h p r ha) h2
    | update d =>
      cases h1
      refine ih (s := s) ?_ h2
      unfold prov_mac_update
      split
      · exact h
      · exact ⟨h.1, h.2.1, shape_update h.2.2 d⟩
    | final =>
      obtain ⟨o, ha, hb⟩ := Option.map_eq_some_iff.mp h1
      subst hb
      exact ih (ok_final X h o ha) h2
    | dup =>
      cases h1
      refine ih (g := prov_mac_dupctx g) (s := provMacSize nid) ⟨h.1, ?_, h.2.2⟩ h2
      show provMacSize g.nid = _
      rw [h.1]

theorem ok_new (rng : Nat → Fin 8 → W32) (nid : MacNid) (g : ProvMacCtx) (h : prov_mac_newctx rng nid = some g) :
    PmOk nid (provMacSize nid) g := by
  unfold prov_mac_newctx at h
  obtain ⟨m, h1, h2⟩ := Option.map_eq_some_iff.mp h
  subst h2
  refine ⟨rfl, rfl, ?_⟩
  cases nid <;> simp only [MacNid.fresh, Option.some.injEq, reduceCtorEq] at h1 <;> subst h1 <;> simp [PmShape, omac_init]

/-! ## The message -/

theorem body_eq (os : List PmBody) (g : ProvMacCtx) :
    pmBody g os = (feedMac g.m (PmBody.chunks os)).map fun m =>
      { g with m := m, mac_size := (lastSet PmBody.sizeOf os).getD g.mac_size } := by
  induction os generalizing g with
  | nil => rfl
  | cons o os ih =>
    rw [lastSet_cons]
    cases o with
    | data x =>
      rw [pmBody, PmBody.chunks]
      by_cases hx : x = []
      · rw [if_pos hx]
        have hu : prov_mac_update g x = (g, true) := by unfold prov_mac_update; rw [if_pos hx]
        rw [hu, if_pos rfl, ih]
        simp [PmBody.sizeOf]
      · rw [if_neg hx, feedMac]
        have hu : prov_mac_update g x = ({ g with m := (g.m.update x).1 }, decide ((g.m.update x).2 > 0)) := by
          unfold prov_mac_update; rw [if_neg hx]
        rw [hu]
        by_cases h : (g.m.update x).2 ≤ 0
        · rw [if_pos h, if_neg (by simp; omega)]; rfl
        · rw [if_neg h, if_pos (by simp; omega), ih]
          simp [PmBody.sizeOf]
    | size n =>
      have hp : prov_mac_set_ctx_params g { size := some (some n) } = some ({ g with mac_size := n }, true) := rfl
      rw [pmBody, hp]
      simp only
      rw [ih, PmBody.chunks]
      · cases lastSet PmBody.sizeOf os <;> rfl
      · intro x; simp
    | reinit s =>
      have hp : prov_mac_init g none { size := s.map some } = some ({ g with mac_size := s.getD g.mac_size }, true) := by
        cases s <;> rfl
      rw [pmBody, hp]
      simp only
      rw [ih, PmBody.chunks]
      · cases lastSet PmBody.sizeOf os <;> cases s <;> rfl
      · intro x; simp

/-! ## Keyed contexts -/

/-- The digest data hold the key and nothing else. -/
def PmKeyed (X : Crypto) (nid : MacNid) (tag : List Bytes → Bytes) (m0 : MacMd) : Prop :=
  PmShape nid m0 ∧ (m0.xofLen (provMacSize nid)).1 = m0 ∧
    ∀ size : Nat, 1 ≤ size → size ≤ provMacMax nid → ∀ xs, ∃ m, feedMac m0 xs = some m ∧
      (m.xofLen size).1.final X = some ((tag xs).take size)

theorem shape_feed {nid : MacNid} (xs : List Bytes) (m m' : MacMd) (h : PmShape nid m) (e : feedMac m xs = some m') : PmShape nid m' := by
  induction xs generalizing m with
  | nil => cases e; exact h
  | cons x xs ih =>
    rw [feedMac] at e
    split at e
    · cases e
    · exact ih _ (shape_update h x) e

theorem xofLen_bad {nid : MacNid} {m : MacMd} (h : PmShape nid m) (v : Int) (hv : ¬ (1 ≤ v ∧ v ≤ provMacMax nid)) :
    (m.xofLen v).1 = m := by
  cases nid <;> cases m <;> simp only [PmShape] at h <;> simp only [MacMd.xofLen, provMacMax] at hv ⊢
  · unfold gost_imit_set_len; rw [if_pos (by omega)]
  · unfold gost_imit_set_len; rw [if_pos (by omega)]
  · unfold omac_xof_len; rw [if_pos (by rw [h]; simp only [OmacCipher.block]; omega)]
  · unfold omac_xof_len; rw [if_pos (by rw [h]; simp only [OmacCipher.block]; omega)]
  · unfold omac_acpkm_set_len; rw [if_pos (by omega)]

/-- The tag of a keyed context for any size asked for. -/
theorem keyed_any_size (X : Crypto) (nid : MacNid) (tag : List Bytes → Bytes) (m0 : MacMd) (h : PmKeyed X nid tag m0) (s : Nat)
    (xs : List Bytes) :
    ∃ m, feedMac m0 xs = some m ∧ (m.xofLen (longToInt s)).1.final X = some ((tag xs).take (provEffSize nid s)) := by
  obtain ⟨h1, h2, h3⟩ := h
  unfold provEffSize
  by_cases hv : 1 ≤ longToInt s ∧ longToInt s ≤ provMacMax nid
  · rw [if_pos hv]
    obtain ⟨m, e1, e2⟩ := h3 (longToInt s).toNat (by omega) (by omega) xs
    refine ⟨m, e1, ?_⟩
    rw [← e2]
    have : (((longToInt s).toNat : Nat) : Int) = longToInt s := by omega
    rw [this]
  · rw [if_neg hv]
    have hd : 1 ≤ provMacSize nid ∧ provMacSize nid ≤ provMacMax nid := by
      cases nid <;> first | decide | (cases m0 <;> simp [PmShape] at h1)
    obtain ⟨m, e1, e2⟩ := h3 (provMacSize nid) hd.1 hd.2 xs
    refine ⟨m, e1, ?_⟩
    rw [xofLen_bad (shape_feed xs m0 m h1 e1) _ hv]
    have := feed_xofLen m0 (provMacSize nid) xs
    rw [h2, e1] at this
    have hm : m = (m.xofLen (provMacSize nid)).1 := by simpa using this
    rw [hm]; exact e2

/-- Setting a key of 32 bytes, whatever was done before. -/
theorem setKey_keyed (X : Crypto) (nid : MacNid) (m : MacMd) (h : PmShape nid m) (key : Bytes) (hk : key.length = 32) :
    (m.setKey (.raw key)).2 = 1 ∧ PmKeyed X nid (provMac X nid key) (m.setKey (.raw key)).1 := by
  have himit : ∀ (c : ImitCtx) (b : SubstBlock) (size : Nat), 1 ≤ size → size ≤ 8 → ∀ xs : List Bytes,
      ∃ m, feedMac (.imit (gost_imit_set_key c b none key) b) xs = some m ∧ (m.xofLen size).1.final X =
        some ((macMeshFold (M89 (kboxinit b)) (mesh89 (kboxinit b)) key 0 (zeros 8) (mac89Blocks xs)).take size) := by
    intro c b size h1 h8 xs
    exact imit_session X c b none key size xs _ (C18_mac_exact_actual c b none key hk size h1 h8 xs)
  have homac : ∀ (c : OmacDigestCtx) (n : OmacCipher), c.cipher_name = n → ∀ (size : Nat), 1 ≤ size → size ≤ n.block →
      ∀ xs : List Bytes, ∃ m, feedMac (.omac (omac_set_key c 32 key).1) xs = some m ∧
        (m.xofLen size).1.final X = some ((X.cmac n key xs.flatten).take size) := by
    intro c n hn size h1 h2 xs
    have hc : (omac_set_key c 32 key).1 = { omac_key (omac_init n) key with key := key.take 32 } := by
      rw [← hn]; rfl
    rw [hc]
    have ht : key.take 32 = key := List.take_of_length_le (by omega)
    have := omac_session X n key [] { omac_key (omac_init n) key with key := key.take 32 } rfl
      (by simp [omac_key, ht]) rfl size h1 h2 xs
    simpa using this
  cases nid <;> cases m <;> simp only [PmShape] at h
  · subst h
    exact ⟨rfl, rfl, rfl, fun size h1 h8 xs => himit _ _ size h1 h8 xs⟩
  · subst h
    exact ⟨rfl, rfl, rfl, fun size h1 h8 xs => himit _ _ size h1 h8 xs⟩
  · rename_i c
    refine ⟨rfl, h, ?_, fun size h1 h8 xs => homac c _ h size h1 h8 xs⟩
    have hc : (omac_set_key c 32 key).1 = { omac_key (omac_init .magma) key with key := key.take 32 } := by rw [← h]; rfl
    simp only [MacMd.setKey, MacSetKey.arg, MacSetKey.bytes, hc, MacMd.xofLen]
    rfl
  · rename_i c
    refine ⟨rfl, h, ?_, fun size h1 h8 xs => homac c _ h size h1 h8 xs⟩
    have hc : (omac_set_key c 32 key).1 = { omac_key (omac_init .kuznyechik) key with key := key.take 32 } := by rw [← h]; rfl
    simp only [MacMd.setKey, MacSetKey.arg, MacSetKey.bytes, hc, MacMd.xofLen]
    rfl
  · exact ⟨rfl, trivial, rfl, fun size h1 h8 xs => acpkm_session X _ key hk size h1 h8 xs⟩

theorem xofLen_clean (g : ProvMacCtx) (hcl : g.cleaned = false) : provXofLen g = some (g.m.xofLen (longToInt g.mac_size)).1 := by
  obtain ⟨a, b, c, m, e⟩ := g
  have : e = false := hcl
  subst this
  unfold provXofLen
  cases m <;> rfl

/-- A final call for which the digest has a tag. -/
theorem final_keyed (X : Crypto) (g : ProvMacCtx) (hcl : g.cleaned = false) (t : Bytes)
    (h : (g.m.xofLen (longToInt g.mac_size)).1.final X = some t) :
    ∃ out, prov_mac_final X g = some out ∧ out.ok = true ∧ out.outl = g.mac_size ∧ out.written = t := by
  unfold prov_mac_final
  rw [xofLen_clean g hcl]
  simp only [h, Option.getD_some, Option.isSome_some]
  exact ⟨_, rfl, rfl, rfl, rfl⟩

/-- The message and the final call on a keyed context. -/
theorem keyed_session (X : Crypto) (nid : MacNid) (tag : List Bytes → Bytes) (s : Nat) (g : ProvMacCtx) (hg : PmOk nid s g)
    (hcl : g.cleaned = false) (hk : PmKeyed X nid tag g.m) (body : List PmBody) :
    ∃ g3 out, pmBody g body = some g3 ∧ prov_mac_final X g3 = some out ∧ out.ok = true ∧
      out.outl = (lastSet PmBody.sizeOf body).getD s ∧
      out.written = (tag (PmBody.chunks body)).take (provEffSize nid ((lastSet PmBody.sizeOf body).getD s)) := by
  obtain ⟨m, e1, e2⟩ := keyed_any_size X nid tag g.m hk ((lastSet PmBody.sizeOf body).getD s) (PmBody.chunks body)
  have hb := body_eq body g
  rw [e1, Option.map_some, hg.2.1] at hb
  obtain ⟨out, o1, o2, o3, o4⟩ := final_keyed X { g with m := m, mac_size := (lastSet PmBody.sizeOf body).getD s } hcl _ e2
  exact ⟨_, out, hb, o1, o2, o3, o4⟩

theorem longToInt_32 : longToInt ((32 : Nat) : Int) = 32 := by unfold longToInt; omega

theorem longToInt_0 : longToInt ((0 : Nat) : Int) = 0 := by unfold longToInt; omega

/-- Setting a key of 32 bytes. -/
theorem provSetKey_32 (g : ProvMacCtx) (key : Bytes) (hk : key.length = 32) :
    provSetKey g key = some ({ g with m := (g.m.setKey (.raw key)).1, cleaned := false }, decide ((g.m.setKey (.raw key)).2 > 0)) := by
  have ht : key.take 32 = key := List.take_of_length_le (by omega)
  have h : longToInt (key.length : Nat) = 32 := by rw [hk]; exact longToInt_32
  unfold provSetKey
  rw [if_pos h, ht]

theorem setKey_32 (X : Crypto) {nid : MacNid} {s : Nat} {g : ProvMacCtx} (hg : PmOk nid s g) (key : Bytes) (hk : key.length = 32) :
    ∃ g', provSetKey g key = some (g', true) ∧ PmOk nid s g' ∧ g'.cleaned = false ∧ PmKeyed X nid (provMac X nid key) g'.m ∧
      g'.xof_mode = g.xof_mode := by
  obtain ⟨e1, e2⟩ := setKey_keyed X nid g.m hg.2.2 key hk
  have hs : provSetKey g key = some ({ g with m := (g.m.setKey (.raw key)).1, cleaned := false }, true) := by
    rw [provSetKey_32 g key hk, e1]; rfl
  exact ⟨_, hs, ⟨hg.1, hg.2.1, shape_setKey hg.2.2 _⟩, rfl, e2, rfl⟩

theorem setParams_eq (g : ProvMacCtx) (p : ProvMacParams) (g1 : ProvMacCtx) (h : provParamSize g p.size = (g1, true)) :
    prov_mac_set_ctx_params g p = (match provParamKey g1 p.key with
      | none => none
      | some (g, false) => some (g, false)
      | some (g, true) => provSetParams2 g p) := by
  rw [prov_mac_set_ctx_params, h]
  exact if_pos rfl

/-- Parameters with a key but no more than a size besides. -/
theorem setParams_key (g : ProvMacCtx) (p : ProvMacParams) (g1 : ProvMacCtx) (key : Bytes) (h : provParamSize g p.size = (g1, true))
    (hk : p.key = some (some key)) (r : Option (ProvMacCtx × Bool)) (hr : provSetKey g1 key = r)
    (h2 : ∀ g, provSetParams2 g p = some (g, true)) : prov_mac_set_ctx_params g p = r := by
  have hpk : provParamKey g1 p.key = r := by rw [hk, provParamKey, hr]
  rw [setParams_eq g p g1 h, hpk]
  rcases r with _ | ⟨g', _ | _⟩
  · rfl
  · rfl
  · exact h2 g'

theorem params_key (g : ProvMacCtx) (z : Option Nat) (key : Bytes) :
    prov_mac_set_ctx_params g { size := z.map some, key := some (some key) } =
      provSetKey { g with mac_size := z.getD g.mac_size } key := by
  have hps : provParamSize g (z.map some) = ({ g with mac_size := z.getD g.mac_size }, true) := by cases z <;> rfl
  exact setParams_key g _ _ key hps rfl _ rfl (fun g => by simp only [provSetParams2, provParamXof, provParamMesh, if_true])

theorem params_size (g : ProvMacCtx) (z : Option Nat) :
    prov_mac_set_ctx_params g { size := z.map some } = some ({ g with mac_size := z.getD g.mac_size }, true) := by
  have hps : provParamSize g (z.map some) = ({ g with mac_size := z.getD g.mac_size }, true) := by cases z <;> rfl
  rw [setParams_eq g _ _ hps]
  simp only [provParamKey, provSetParams2, provParamXof, provParamMesh, if_true]

theorem params_none (g : ProvMacCtx) : prov_mac_set_ctx_params g {} = some (g, true) := params_size g none

theorem start_keyed (X : Crypto) {nid : MacNid} {s : Nat} {g : ProvMacCtx} (hg : PmOk nid s g) (key : Bytes) (hk : key.length = 32)
    (st : PmStart) :
    ∃ g', pmStart g key st = some (g', true) ∧ PmOk nid (st.size.getD s) g' ∧ g'.cleaned = false ∧
      PmKeyed X nid (provMac X nid key) g'.m := by
  have hsz : ∀ z : Option Nat, PmOk nid (z.getD s) { g with mac_size := z.getD g.mac_size } := by
    intro z
    refine ⟨hg.1, ?_, hg.2.2⟩
    show z.getD g.mac_size = z.getD s
    rw [hg.2.1]
  have hst : pmStart g key st = provSetKey { g with mac_size := st.size.getD g.mac_size } key := by
    cases st with
    | initKey z =>
      have : (PmStart.initKey z).size = z := rfl
      rw [pmStart, prov_mac_init, params_size, this]
    | initParam z =>
      have : (PmStart.initParam z).size = z := rfl
      rw [pmStart, prov_mac_init, params_key, this]
      generalize provSetKey { g with mac_size := z.getD g.mac_size } key = r
      rcases r with _ | ⟨g', _ | _⟩ <;> rfl
    | param z =>
      have : (PmStart.param z).size = z := rfl
      rw [pmStart, params_key, this]
  obtain ⟨g', e1, e2, e3, e4, e5⟩ := setKey_32 X (hsz st.size) key hk
  exact ⟨g', by rw [hst, e1], e2, e3, e4⟩

/-- **C63** MACs through the provider.  Take a new context of one of the five MACs, use it in any way (any sequence of calls, of which
any may be refused), set a key of 32 bytes in any of the three ways, and authenticate a message with any sequence of updates, size changes
and `EVP_MAC_init` calls without key.  Every one of these calls succeeds, so does the final call; the length it reports is the size last
given in the whole history (the default if none was); it writes the MAC of the message under that key, cut to `provEffSize` bytes. -/
theorem C63_mac (X : Crypto) (rng : Nat → Fin 8 → W32) (nid : MacNid) (g0 g1 : ProvMacCtx) (hn : prov_mac_newctx rng nid = some g0)
    (hist : List PmOp) (hr : pmRun X g0 hist = some g1) (key : Bytes) (hk : key.length = 32) (st : PmStart) (body : List PmBody) :
    let size := (lastSet PmBody.sizeOf body).getD (st.size.getD (pmSize (provMacSize nid) (provMacSize nid) hist))
    ∃ g2 g3 out, pmStart g1 key st = some (g2, true) ∧ pmBody g2 body = some g3 ∧ prov_mac_final X g3 = some out ∧ out.ok = true ∧
      out.outl = size ∧ out.written = (provMac X nid key (PmBody.chunks body)).take (provEffSize nid size) := by
  have hg1 := ok_run X hist (ok_new rng nid g0 hn) hr
  obtain ⟨g2, e1, e2, e3, e4⟩ := start_keyed X hg1 key hk st
  obtain ⟨g3, out, f1, f2, f3, f4, f5⟩ := keyed_session X nid _ _ g2 e2 e3 e4 body
  exact ⟨g2, g3, out, e1, f1, f2, f3, f4, f5⟩

/-- **C63** For every size the MAC can have, that many bytes are written. -/
theorem C63_sizes (nid : MacNid) (size : Nat) (h1 : 1 ≤ size) (h2 : size ≤ provMacMax nid) : provEffSize nid size = size := by
  have hm : provMacMax nid ≤ 16 := by cases nid <;> decide
  have : longToInt (size : Nat) = size := by unfold longToInt; omega
  unfold provEffSize
  rw [this, if_pos ⟨by omega, by omega⟩]; omega

/-- **C63** The MAC is the standard's: CMAC with Magma or Kuznyechik, OMAC-ACPKM with sections of 4096 bytes, and the GOST 28147-89 MAC
with the CryptoPro-A or the TC26-Z parameter set, the last with C18's exception for messages of eight bytes given in pieces. -/
theorem C63_is_standard (X : Crypto) (nid : MacNid) (key : Bytes) (chunks : List Bytes)
    (h : nid = .gost28147_mac ∨ nid = .gost_mac_12 → chunks.flatten.length ≠ 8 ∨ chunks.length = 1) :
    provMac X nid key chunks = stdMac X nid none key chunks.flatten := by
  have hb : (nid = .gost28147_mac ∨ nid = .gost_mac_12) → mac89Blocks chunks = macBlocks chunks.flatten := by
    intro hn
    unfold mac89Blocks
    rcases h hn with h | h
    · rw [if_neg (fun e => h e.1)]
    · obtain ⟨m, rfl⟩ := List.length_eq_one_iff.mp h
      rw [if_neg]
      rintro ⟨_, h⟩
      exact h (by simp)
  cases nid <;> simp only [provMac]
  · rw [hb (Or.inl rfl)]; rfl
  · rw [hb (Or.inr rfl)]; rfl

/-! ## Lengths -/

theorem macMeshFold_length (box : KBox) (k : Bytes) (j : Nat) (s : Bytes) (hs : s.length = 8) (bs : List Bytes) :
    (macMeshFold (M89 box) (mesh89 box) k j s bs).length = 8 := by
  induction bs generalizing k j s with
  | nil => exact hs
  | cons b bs ih => exact ih _ _ _ (M89_length box _ s b)

theorem provMac_length (X : Crypto) (nid : MacNid) (key : Bytes) (chunks : List Bytes) :
    (provMac X nid key chunks).length = provMacMax nid := by
  cases nid <;> simp only [provMac, provMacMax, stdMac]
  · exact macMeshFold_length _ _ _ _ rfl _
  · exact macMeshFold_length _ _ _ _ rfl _
  · exact X.cmac_length _ _ _
  · exact X.cmac_length _ _ _
  · exact EKuz_length _ _
  · rfl
  · rfl

/-- **C63** (what the code does) The number of bytes a successful final call writes, for any size asked for; `EVP_MAC_final` only makes
sure that the buffer has room for the size asked for. -/
theorem C63_written_length (X : Crypto) (nid : MacNid) (key : Bytes) (chunks : List Bytes) (size : Nat) :
    ((provMac X nid key chunks).take (provEffSize nid size)).length = provEffSize nid size := by
  have h : provEffSize nid size ≤ provMacMax nid := by
    unfold provEffSize
    split
    · omega
    · cases nid <;> decide
  rw [List.length_take, provMac_length]; omega

/-- **C63** (what the code does) sizes that are not lengths of the MAC: every size is accepted, and reported, but the default number of
bytes is written - with size 0, into a buffer that need not have any. -/
theorem C63_bad_size_accepted (nid : MacNid) (hn : nid ≠ .magma_omac_acpkm ∧ nid ≠ .other) (g : ProvMacCtx) :
    (∀ n : Nat, prov_mac_set_ctx_params g { size := some (some n) } = some ({ g with mac_size := n }, true)) ∧
    provEffSize nid 0 = provMacSize nid ∧ 0 < provMacSize nid ∧ provEffSize nid 1000 = provMacSize nid ∧ provMacSize nid < 1000 ∧
    provEffSize nid (2^32 + 1) = 1 := by
  have e0 : longToInt ((0 : Nat) : Int) = 0 := longToInt_0
  have e1 : longToInt ((1000 : Nat) : Int) = 1000 := by unfold longToInt; omega
  have e2 : longToInt ((2^32 + 1 : Nat) : Int) = 1 := by unfold longToInt; omega
  refine ⟨fun n => params_size g (some n), ?_⟩
  unfold provEffSize
  rw [e0, e1, e2]
  cases nid <;> first | decide | simp at hn

/-! ## Sections of OMAC-ACPKM -/

theorem key_mesh_size (c : OmacCtx) (N T : Int) (r : OmacCtx × Int) (h : omac_acpkm_key_mesh c N T = some r) :
    r.1.dgst_size = c.dgst_size := by
  unfold omac_acpkm_key_mesh at h
  split at h
  · cases h; rfl
  · split at h
    · cases h
    · simp only at h
      split at h
      · split at h <;> cases h <;> rfl
      · cases h; rfl

theorem mesh_keyed (X : Crypto) (c : OmacCtx) (key : Bytes) (hk : key.length = 32) (N T : Nat) (h0 : 0 < N) (hN : N < 2^31)
    (hN16 : 16 ∣ N) (hT : T = 0 ∨ (48 ≤ T ∧ T < 2^31 ∧ 16 ∣ T)) :
    ∃ c', omac_acpkm_key_mesh (omac_acpkm_set_key c key).1 N T = some (c', 1) ∧
      PmKeyed X .kuz_omac_acpkm (fun xs => omacAcpkm EKuz N (if T = 0 then 4096 else T) key xs.flatten) (.acpkm c') := by
  have h := fun size hs hs' chunks => C21_omac_acpkm_is_standard c key hk N T h0 hN hN16 hT size hs hs' chunks
  unfold omacMac omacSections at h
  simp only at h
  cases hm : omac_acpkm_key_mesh (omac_acpkm_set_key c key).1 N T with
  | none =>
    have := h 16 (by decide) (by decide) []
    rw [hm] at this; cases this
  | some r =>
    rw [hm] at h
    simp only [Option.bind_some] at h
    by_cases hr : r.2 = 1
    · simp only [hr, if_true] at h
      refine ⟨r.1, by rw [← hr], trivial, ?_, ?_⟩
      · have hd := key_mesh_size _ _ _ r hm
        have hd' : r.1.dgst_size = 16 := hd
        have hx : omac_acpkm_set_len r.1 16 = (r.1, 1) := by
          unfold omac_acpkm_set_len
          rw [if_neg (by decide)]
          have : { r.1 with dgst_size := (16 : Int).toNat } = r.1 := by
            show { r.1 with dgst_size := 16 } = r.1
            rw [← hd']
          rw [this]
        show MacMd.acpkm (omac_acpkm_set_len r.1 16).1 = _
        rw [hx]
      · intro size h1 h2 xs
        have hrun := h size h1 h2 xs
        unfold omacRun at hrun
        by_cases hl : (omac_acpkm_set_len r.1 size).2 = 1
        · rw [if_pos hl] at hrun
          obtain ⟨c', e1, e2⟩ := Option.bind_eq_some_iff.mp hrun
          exact feed_then X _ size xs (.acpkm c') _ (acpkm_feed xs _ c' e1) e2
        · rw [if_neg hl] at hrun; cases hrun
    · have := h 16 (by decide) (by decide) []
      rw [if_neg hr] at this; cases this

theorem acpkm_setKey (c : OmacCtx) (key : Bytes) :
    (MacMd.acpkm c).setKey (.raw key) = (.acpkm (omac_acpkm_set_key c key).1, 1) := by
  unfold MacMd.setKey
  rfl

theorem keyMesh_acpkm (g : ProvMacCtx) (c : OmacCtx) (N T : Int) (r : OmacCtx × Int) (hm : g.m = .acpkm c)
    (h : omac_acpkm_key_mesh c N T = some r) : provKeyMesh g N T = some ({ g with m := .acpkm r.1 }, decide (r.2 > 0)) := by
  unfold provKeyMesh
  rw [hm]
  simp only [h]

theorem keyMesh_acpkm_none (g : ProvMacCtx) (c : OmacCtx) (N T : Int) (hm : g.m = .acpkm c)
    (h : omac_acpkm_key_mesh c N T = none) : provKeyMesh g N T = none := by
  unfold provKeyMesh
  rw [hm]
  simp only [h]

/-- Parameters with only "key-mesh". -/
theorem params_mesh (g : ProvMacCtx) (N : Nat) :
    prov_mac_set_ctx_params g { keyMesh := some (some N) } = provKeyMesh g (longToInt N) 0 := by
  rw [setParams_eq g { keyMesh := some (some N) } g rfl]
  simp only [provParamKey, provSetParams2, provParamXof, provParamMesh, if_true]

theorem longToInt_small (n : Nat) (h : n < 2^31) : longToInt (n : Nat) = n := by unfold longToInt; omega

/-- The parameters "key", "key-mesh" and, unless it is 0, "cipher-key-mesh". -/
def sectionParams (key : Bytes) (N T : Nat) : ProvMacParams :=
  { key := some (some key), keyMesh := some (some N), cipherKeyMesh := if T = 0 then none else some (some T) }

/-- **C63** The sections of OMAC-ACPKM, given together with the key as parameters "key", "key-mesh" and "cipher-key-mesh" (`T = 0`
stands for the last being absent), after any use of the context. -/
theorem C63_sections (X : Crypto) (rng : Nat → Fin 8 → W32) (g0 g1 : ProvMacCtx)
    (hn : prov_mac_newctx rng .kuz_omac_acpkm = some g0) (hist : List PmOp) (hr : pmRun X g0 hist = some g1) (key : Bytes)
    (hk : key.length = 32) (N T : Nat) (h0 : 0 < N) (hN : N < 2^31) (hN16 : 16 ∣ N) (hT : T = 0 ∨ (48 ≤ T ∧ T < 2^31 ∧ 16 ∣ T))
    (body : List PmBody) :
    let size := (lastSet PmBody.sizeOf body).getD (pmSize 16 16 hist)
    ∃ g2 g3 out, prov_mac_set_ctx_params g1 (sectionParams key N T) = some (g2, true) ∧ pmBody g2 body = some g3 ∧ prov_mac_final X g3 = some out ∧ out.ok = true ∧ out.outl = size ∧
      out.written = (omacAcpkm EKuz N (if T = 0 then 4096 else T) key (PmBody.chunks body).flatten).take
        (provEffSize .kuz_omac_acpkm size) := by
  have hg1 := ok_run X hist (ok_new rng .kuz_omac_acpkm g0 hn) hr
  obtain ⟨n1, n2, n3⟩ := hg1
  cases hm : g1.m with
  | imit c b => rw [hm] at n3; exact n3.elim
  | omac c => rw [hm] at n3; exact n3.elim
  | acpkm c =>
    obtain ⟨c', e1, e2⟩ := mesh_keyed X c key hk N T h0 hN hN16 hT
    have hs : provSetKey g1 key = some ({ g1 with m := .acpkm (omac_acpkm_set_key c key).1, cleaned := false }, true) := by
      rw [provSetKey_32 g1 key hk, hm]
      simp only [acpkm_setKey]; rfl
    have hmesh : provParamMesh { g1 with m := .acpkm (omac_acpkm_set_key c key).1, cleaned := false } (some (some N))
        (if T = 0 then none else some (some T)) = some ({ g1 with m := .acpkm c', cleaned := false }, true) := by
      have hkm := keyMesh_acpkm { g1 with m := .acpkm (omac_acpkm_set_key c key).1, cleaned := false } _ N T (c', 1) rfl e1
      by_cases hT0 : T = 0
      · rw [if_pos hT0, provParamMesh, longToInt_small N hN]
        rw [hT0] at hkm
        exact hkm
      · have hT' : T < 2^31 := by omega
        rw [if_neg hT0, provParamMesh, longToInt_small N hN, longToInt_small T hT']
        exact hkm
    have hp : prov_mac_set_ctx_params g1 (sectionParams key N T) = some ({ g1 with m := .acpkm c', cleaned := false }, true) := by
      have hk : provParamKey g1 (sectionParams key N T).key =
          some ({ g1 with m := .acpkm (omac_acpkm_set_key c key).1, cleaned := false }, true) := hs
      rw [setParams_eq g1 (sectionParams key N T) g1 rfl, hk]
      simp only [provSetParams2, sectionParams, provParamXof, if_true]
      exact hmesh
    obtain ⟨g3, out, f1, f2, f3, f4, f5⟩ := keyed_session X .kuz_omac_acpkm _ _ { g1 with m := .acpkm c', cleaned := false }
      ⟨n1, n2, trivial⟩ rfl e2 body
    exact ⟨_, g3, out, hp, f1, f2, f3, f4, f5⟩

/-- **C63** (what the code does) sections given together with the key argument of `EVP_MAC_init`: parameters are applied before the
key, and without a key `EVP_CTRL_KEY_MESH` follows a NULL pointer.  So it is for every new context, and after every final call. -/
theorem C63_sections_with_key_argument_crash (X : Crypto) (rng : Nat → Fin 8 → W32) (g0 : ProvMacCtx)
    (hn : prov_mac_newctx rng .kuz_omac_acpkm = some g0) (key : Bytes) (N : Nat) (h0 : 0 < N) (hN : N < 2^31) (hN16 : 16 ∣ N) :
    prov_mac_init g0 (some key) { keyMesh := some (some N) } = none ∧
    ∀ hist g1 out, pmRun X g0 hist = some g1 → prov_mac_final X g1 = some out →
      prov_mac_init out.ctx (some key) { keyMesh := some (some N) } = none := by
  have hmesh : ∀ (c : OmacCtx), c.cmac = none → omac_acpkm_key_mesh c (longToInt (N : Nat)) 0 = none := by
    intro c hc
    have hNt : ((N : Int).tmod 16) = 0 := Int.tmod_eq_zero_of_dvd (by omega)
    unfold omac_acpkm_key_mesh
    rw [longToInt_small N hN, if_neg (by rw [hNt]; omega), hc]
  have key' : ∀ (g : ProvMacCtx) (c : OmacCtx), g.m = .acpkm c → c.cmac = none →
      prov_mac_init g (some key) { keyMesh := some (some N) } = none := by
    intro g c hm hc
    have hp : prov_mac_set_ctx_params g { keyMesh := some (some N) } = none := by
      rw [params_mesh]
      exact keyMesh_acpkm_none g c _ _ hm (hmesh c hc)
    unfold prov_mac_init
    rw [hp]
  constructor
  · cases hn
    exact key' _ _ rfl rfl
  · intro hist g1 out hr hf
    have hg1 := ok_run X hist (ok_new rng .kuz_omac_acpkm g0 hn) hr
    unfold prov_mac_final at hf
    split at hf
    · cases hf
    · rename_i m hm
      cases hf
      have hsh : PmShape .kuz_omac_acpkm m := by
        unfold provXofLen at hm
        split at hm
        · cases hm
        · cases hm
        · cases hm; exact shape_xofLen hg1.2.2 _
      cases m with
      | imit c b => exact hsh.elim
      | omac c => exact hsh.elim
      | acpkm c => exact key' _ _ rfl rfl

/-- **C63** (what the code does) On a context that has a key, sections given together with a key argument are lost: the new key's
sections are the default ones. -/
theorem C63_sections_with_key_argument_actual (g g' : ProvMacCtx) (c : OmacCtx) (hm : g.m = .acpkm c) (key : Bytes)
    (hk : key.length = 32) (N : Nat) (h : prov_mac_init g (some key) { keyMesh := some (some N) } = some (g', true)) :
    prov_mac_init g (some key) {} = some (g', true) := by
  have hkey : ∀ (g : ProvMacCtx) (c : OmacCtx), g.m = .acpkm c →
      provSetKey g key = some ({ g with m := .acpkm (omac_acpkm_set_key c key).1, cleaned := false }, true) := by
    intro g c hm
    rw [provSetKey_32 g key hk, hm]
    simp only [acpkm_setKey]; rfl
  have h2 : prov_mac_init g (some key) {} = some ({ g with m := .acpkm (omac_acpkm_set_key c key).1, cleaned := false }, true) := by
    have hp : prov_mac_set_ctx_params g {} = some (g, true) := params_none g
    unfold prov_mac_init
    rw [hp]
    exact hkey g c hm
  rw [h2]
  unfold prov_mac_init at h
  cases hm' : omac_acpkm_key_mesh c (longToInt (N : Nat)) 0 with
  | none =>
    have hp : prov_mac_set_ctx_params g { keyMesh := some (some N) } = none := by
      rw [params_mesh]
      exact keyMesh_acpkm_none g c _ _ hm hm'
    rw [hp] at h; cases h
  | some r =>
    have hp : prov_mac_set_ctx_params g { keyMesh := some (some N) } = some ({ g with m := .acpkm r.1 }, decide (r.2 > 0)) := by
      rw [params_mesh]
      exact keyMesh_acpkm g c _ _ r hm hm'
    rw [hp] at h
    cases hd : decide (r.2 > 0) with
    | false => rw [hd] at h; cases h
    | true =>
      rw [hd] at h
      simp only at h
      rw [hkey { g with m := .acpkm r.1 } r.1 rfl] at h
      exact h

/-! ## Duplicates -/

/-- **C63** A duplicate taken in the middle of a message goes on like the original: the same further data give the same MAC, cut to the size
in force for each.  The size of a duplicate is the default (what the code does: the size is not copied). -/
theorem C63_dup_actual (X : Crypto) (rng : Nat → Fin 8 → W32) (nid : MacNid) (g0 g1 g2 g3 : ProvMacCtx)
    (hn : prov_mac_newctx rng nid = some g0) (hist : List PmOp) (hr : pmRun X g0 hist = some g1) (key : Bytes) (hk : key.length = 32)
    (st : PmStart) (h2 : pmStart g1 key st = some (g2, true)) (body more : List PmBody) (h3 : pmBody g2 body = some g3) :
    ∃ g4 out, pmBody (prov_mac_dupctx g3) more = some g4 ∧ prov_mac_final X g4 = some out ∧ out.ok = true ∧
      out.outl = (lastSet PmBody.sizeOf more).getD (provMacSize nid) ∧
      out.written = (provMac X nid key (PmBody.chunks body ++ PmBody.chunks more)).take
        (provEffSize nid ((lastSet PmBody.sizeOf more).getD (provMacSize nid))) := by
  have hg1 := ok_run X hist (ok_new rng nid g0 hn) hr
  obtain ⟨g2', e1, e2, e3, e4⟩ := start_keyed X hg1 key hk st
  rw [h2] at e1
  cases e1
  have hb := body_eq body g2
  rw [h3] at hb
  obtain ⟨m, hm, hm'⟩ := Option.map_eq_some_iff.mp hb.symm
  have hfa : ∀ (xs ys : List Bytes) (m m' : MacMd), feedMac m xs = some m' → feedMac m (xs ++ ys) = feedMac m' ys := by
    intro xs
    induction xs with
    | nil => intro ys m m' h; cases h; rfl
    | cons x xs ih =>
      intro ys m m' h
      rw [feedMac] at h
      rw [List.cons_append, feedMac]
      split at h
      · cases h
      · rename_i hu
        rw [if_neg hu]
        exact ih ys _ m' h
  obtain ⟨m1, f1, f2⟩ := keyed_any_size X nid _ g2.m e4 ((lastSet PmBody.sizeOf more).getD (provMacSize nid))
    (PmBody.chunks body ++ PmBody.chunks more)
  rw [hfa _ _ _ _ hm] at f1
  have hd : prov_mac_dupctx g3 = { nid := nid, mac_size := provMacSize nid, xof_mode := 0, m := m, cleaned := false } := by
    rw [← hm']
    unfold prov_mac_dupctx
    simp only [e2.1, e3]
  have hb2 := body_eq more (prov_mac_dupctx g3)
  rw [hd] at hb2 ⊢
  simp only [f1, Option.map_some] at hb2
  obtain ⟨out, o1, o2, o3, o4⟩ := final_keyed X ⟨nid, (lastSet PmBody.sizeOf more).getD (provMacSize nid), 0, m1, false⟩ rfl _ f2
  exact ⟨_, out, hb2, o1, o2, o3, o4⟩

/-! ## Contexts without a key -/

/-- No key. -/
def MacMd.noKey : MacMd → Prop
  | .imit c _ => c.key_set = false
  | .omac c => c.key_set = false
  | .acpkm c => c.key_set = false

theorem noKey_update (m : MacMd) (h : m.noKey) (d : Bytes) : m.update d = (m, 0) := by
  cases m with
  | imit c b => simp only [MacMd.update, (C18_needs_key c h d).1]
  | omac c =>
    have : omac_imit_update c d = (c, 0) := by unfold omac_imit_update; rw [if_pos (by have : c.key_set = false := h; simp [this])]
    simp only [MacMd.update, this]
  | acpkm c =>
    have : omac_acpkm_imit_update c d = none := by
      unfold omac_acpkm_imit_update; rw [if_pos (by have : c.key_set = false := h; simp [this])]
    simp only [MacMd.update, this]

theorem noKey_final (X : Crypto) (m : MacMd) (h : m.noKey) (v : Int) : (m.xofLen v).1.final X = none := by
  cases m with
  | imit c b =>
    have hc : ∀ c' : ImitCtx, c'.key_set = false → gost_imit_final c' = none := fun c' h => (C18_needs_key c' h []).2
    simp only [MacMd.xofLen, MacMd.final]
    refine hc _ ?_
    unfold gost_imit_set_len
    split <;> exact h
  | omac c =>
    have hc : ∀ c' : OmacDigestCtx, c'.key_set = false → omac_imit_final X c' = none := by
      intro c' h; unfold omac_imit_final; rw [if_pos (by simp [h])]
    simp only [MacMd.xofLen, MacMd.final]
    refine hc _ ?_
    unfold omac_xof_len
    split <;> exact h
  | acpkm c =>
    have hc : ∀ c' : OmacCtx, c'.key_set = false → omac_acpkm_imit_final c' = none := by
      intro c' h; unfold omac_acpkm_imit_final; rw [if_pos (by simp [h])]
    simp only [MacMd.xofLen, MacMd.final]
    refine hc _ ?_
    unfold omac_acpkm_set_len
    split <;> exact h

theorem noKey_wipe (m : MacMd) : m.wipe.noKey := by cases m <;> rfl

/-- **C63** Without a key - in a new context, and after every final call, successful or not - data are refused; the final call of a new
context fails and writes nothing. -/
theorem C63_needs_key (X : Crypto) (rng : Nat → Fin 8 → W32) (nid : MacNid) (g0 : ProvMacCtx) (hn : prov_mac_newctx rng nid = some g0)
    (d : Bytes) (hd : d ≠ []) :
    prov_mac_update g0 d = (g0, false) ∧ (∃ out, prov_mac_final X g0 = some out ∧ out.ok = false ∧ out.written = []) ∧
    ∀ g out, prov_mac_final X g = some out → prov_mac_update out.ctx d = (out.ctx, false) := by
  have hup : ∀ g : ProvMacCtx, g.m.noKey → prov_mac_update g d = (g, false) := by
    intro g h
    unfold prov_mac_update
    rw [if_neg hd, noKey_update _ h]; rfl
  have hnk : g0.m.noKey ∧ g0.cleaned = false := by
    unfold prov_mac_newctx at hn
    obtain ⟨m, h1, h2⟩ := Option.map_eq_some_iff.mp hn
    subst h2
    refine ⟨?_, rfl⟩
    cases nid <;> simp only [MacNid.fresh, Option.some.injEq, reduceCtorEq] at h1 <;> subst h1 <;> rfl
  refine ⟨hup g0 hnk.1, ?_, ?_⟩
  · unfold prov_mac_final
    rw [xofLen_clean g0 hnk.2]
    simp only [noKey_final X g0.m hnk.1]
    exact ⟨_, rfl, rfl, rfl⟩
  · intro g out hf
    unfold prov_mac_final at hf
    split at hf
    · cases hf
    · cases hf
      exact hup _ (noKey_wipe _)

/-- **C63** (what the code does) A second final call: it fails for the GOST 28147-89 MACs; for the OMACs it follows a NULL pointer. -/
theorem C63_second_final_actual (X : Crypto) (rng : Nat → Fin 8 → W32) (nid : MacNid) (g0 g1 : ProvMacCtx)
    (hn : prov_mac_newctx rng nid = some g0) (hist : List PmOp) (hr : pmRun X g0 hist = some g1) (out : ProvMacOut)
    (hf : prov_mac_final X g1 = some out) :
    (nid = .gost28147_mac ∨ nid = .gost_mac_12 → ∃ o, prov_mac_final X out.ctx = some o ∧ o.ok = false ∧ o.written = []) ∧
    (nid = .magma_mac ∨ nid = .grasshopper_mac ∨ nid = .kuz_omac_acpkm → prov_mac_final X out.ctx = none) := by
  have hg1 := ok_run X hist (ok_new rng nid g0 hn) hr
  have hok := ok_final X hg1 out hf
  have hcl : out.ctx.cleaned = true ∧ out.ctx.m.noKey := by
    unfold prov_mac_final at hf
    split at hf
    · cases hf
    · cases hf; exact ⟨rfl, noKey_wipe _⟩
  generalize out.ctx = g at *
  obtain ⟨a, b, c, m, e⟩ := g
  obtain ⟨h1, h2⟩ := hcl
  have : e = true := h1
  subst this
  have hs : PmShape nid m := hok.2.2
  constructor
  · intro hi
    cases m with
    | imit c' b' =>
      unfold prov_mac_final
      have hx : provXofLen ⟨a, b, c, .imit c' b', true⟩ = some ((MacMd.imit c' b').xofLen (longToInt b)).1 := rfl
      rw [hx]
      simp only [noKey_final X (.imit c' b') h2]
      exact ⟨_, rfl, rfl, rfl⟩
    | omac c' => rcases hi with rfl | rfl <;> exact hs.elim
    | acpkm c' => rcases hi with rfl | rfl <;> exact hs.elim
  · intro hi
    cases m with
    | imit c' b' => rcases hi with rfl | rfl | rfl <;> exact hs.elim
    | omac c' => rfl
    | acpkm c' => rfl

/-! ## Keys of other lengths -/

/-- **C63** Keys that are not of 32 bytes are refused, whatever way they are given (lengths that are a multiple of `2^32` aside). -/
theorem C63_key_length (g : ProvMacCtx) (key : Bytes) (h : longToInt key.length ≠ 32) (h0 : longToInt key.length ≠ 0) :
    ∃ g', prov_mac_init g (some key) {} = some (g', false) ∧ prov_mac_init g none { key := some (some key) } = some (g', false) ∧
      prov_mac_set_ctx_params g { key := some (some key) } = some (g', false) := by
  have hs : provSetKey g key = some ({ g with m := g.m.reinit, cleaned := false }, false) := by
    unfold provSetKey; rw [if_neg h, if_neg h0]
  have hp : prov_mac_set_ctx_params g { key := some (some key) } = some ({ g with m := g.m.reinit, cleaned := false }, false) :=
    (params_key g none key).trans hs
  refine ⟨_, ?_, ?_, hp⟩
  · rw [prov_mac_init, params_none]; exact hs
  · rw [prov_mac_init, hp]

/-- **C63** (what the code does) empty keys: they are not refused, but read as another structure. -/
theorem C63_empty_key_crashes (g : ProvMacCtx) :
    prov_mac_init g (some []) {} = none ∧ prov_mac_init g none { key := some (some []) } = none ∧
      prov_mac_set_ctx_params g { key := some (some []) } = none := by
  have hs : ∀ g, provSetKey g [] = none := by
    intro g
    have h : longToInt (([] : Bytes).length : Nat) = 0 := longToInt_0
    unfold provSetKey
    rw [if_neg (by rw [h]; decide), if_pos h]
  have hp : prov_mac_set_ctx_params g { key := some (some []) } = none := (params_key g none []).trans (hs _)
  refine ⟨?_, ?_, hp⟩
  · rw [prov_mac_init, params_none]; exact hs g
  · rw [prov_mac_init, hp]

/-- **C63** (what the code does) After a key of a wrong length was refused, an OMAC context has no key; a GOST 28147-89 MAC context has the
one it was using (that is, the meshed one if more than 1024 bytes were given), and begins a new message with it. -/
theorem C63_refused_key_actual (g : ProvMacCtx) (key : Bytes) (h : longToInt key.length ≠ 32) (h0 : longToInt key.length ≠ 0) :
    ∃ g', prov_mac_init g (some key) {} = some (g', false) ∧
      match g.m with
      | .imit c b => g'.m = .imit (gost_imit_init c b) b ∧ (gost_imit_init c b).key_set = c.key_set ∧
          gost_get_key (gost_imit_init c b).cctx = gost_get_key c.cctx
      | .omac _ | .acpkm _ => g'.m.noKey := by
  have hs : provSetKey g key = some ({ g with m := g.m.reinit, cleaned := false }, false) := by
    unfold provSetKey; rw [if_neg h, if_neg h0]
  refine ⟨{ g with m := g.m.reinit, cleaned := false }, by rw [prov_mac_init, params_none]; exact hs, ?_⟩
  cases hm : g.m with
  | imit c b =>
    have hk : gost_get_key (gost_init c.cctx b) = gost_get_key c.cctx := by unfold gost_init gost_get_key; rfl
    refine ⟨rfl, ?_, ?_⟩
    · unfold gost_imit_init; rfl
    · unfold gost_imit_init; exact hk
  | omac c => simp only [MacMd.reinit, MacMd.noKey, omac_init]
  | acpkm c => simp only [MacMd.reinit, MacMd.noKey, omac_acpkm_init]

/-! ## `EVP_MAC_init` without a key -/

/-- **C63** (what the code does) `EVP_MAC_init` without a key, which OpenSSL documents as starting a new message under the same key:
the message goes on.  Here `a`, then such a call, then `b` are authenticated as `a ++ b`. -/
theorem C63_init_does_not_restart :
    ∃ g0 g1 g2, prov_mac_newctx witRng .gost28147_mac = some g0 ∧
      pmStart g0 sampleKey (.initKey none) = some (g1, true) ∧
      pmBody g1 [.data [1, 2, 3], .reinit none, .data [4, 5, 6]] = some g2 ∧
      ∀ X : Crypto, ∃ out, prov_mac_final X g2 = some out ∧
        out.written = (provMac X .gost28147_mac sampleKey [[1, 2, 3], [4, 5, 6]]).take 4 ∧
        out.written ≠ (provMac X .gost28147_mac sampleKey [[4, 5, 6]]).take 4 := by
  have hX : ∀ X : Crypto, (provMac X .gost28147_mac sampleKey [[1, 2, 3], [4, 5, 6]]).take 4 ≠
      (provMac X .gost28147_mac sampleKey [[4, 5, 6]]).take 4 := by
    intro X
    simp only [provMac]
    decide +kernel
  obtain ⟨g0, hn⟩ : ∃ g0, prov_mac_newctx witRng .gost28147_mac = some g0 := ⟨_, rfl⟩
  let X0 : Crypto := { cmac := fun n _ _ => zeros n.block, hmac := fun _ _ => zeros 32, cmac_length := by intro n k m; simp [zeros],
                       hmac_length := by intro k m; rfl }
  obtain ⟨g1, g2, out, e1, e2, -⟩ := C63_mac X0 witRng .gost28147_mac g0 g0 hn [] rfl sampleKey rfl (.initKey none)
    [.data [1, 2, 3], .reinit none, .data [4, 5, 6]]
  refine ⟨g0, g1, g2, hn, e1, e2, fun X => ?_⟩
  obtain ⟨g1', g2', out, f1, f2, f3, f4, f5, f6⟩ := C63_mac X witRng .gost28147_mac g0 g0 hn [] rfl sampleKey rfl (.initKey none)
    [.data [1, 2, 3], .reinit none, .data [4, 5, 6]]
  rw [e1] at f1
  cases f1
  rw [e2] at f2
  cases f2
  have f6' : out.written = (provMac X .gost28147_mac sampleKey [[1, 2, 3], [4, 5, 6]]).take 4 := by
    rw [f6, show (lastSet PmBody.sizeOf [PmBody.data [1, 2, 3], PmBody.reinit none, PmBody.data [4, 5, 6]]).getD
      ((PmStart.initKey none).size.getD (pmSize (provMacSize .gost28147_mac) (provMacSize .gost28147_mac) [])) = 4 from rfl,
      C63_sizes .gost28147_mac 4 (by decide) (by decide)]
    rfl
  refine ⟨out, f3, f6', ?_⟩
  rw [f6']
  exact hX X

/-- The hypotheses of `C63_mac` are met: a Magma OMAC context that was keyed, used, finished, given a wrong key, and duplicated. -/
example (X : Crypto) : ∃ g0 g1, prov_mac_newctx witRng .magma_mac = some g0 ∧
    pmRun X g0 [.init (some sampleKey) { size := some (some 5) }, .update [1, 2], .final, .setParams { key := some (some [1]) }, .dup] =
      some g1 := by
  obtain ⟨g0, hn⟩ : ∃ g0, prov_mac_newctx witRng .magma_mac = some g0 := ⟨_, rfl⟩
  obtain ⟨g1, e1, e2, e3, e4⟩ := start_keyed X (ok_new witRng _ g0 hn) sampleKey rfl (.initKey (some 5))
  obtain ⟨g3, out, f1, f2, -⟩ := keyed_session X _ _ _ g1 e2 e3 e4 [.data [1, 2]]
  have hu : (prov_mac_update g1 [1, 2]).1 = g3 := by
    rw [pmBody] at f1
    split at f1
    · exact Option.some.inj f1
    · cases f1
  have hl : longToInt (([1] : Bytes).length : Nat) = 1 := longToInt_small 1 (by decide)
  obtain ⟨g4, -, -, h4⟩ := C63_key_length out.ctx [1] (by rw [hl]; decide) (by rw [hl]; decide)
  have s1 : pmStep X g0 (.init (some sampleKey) { size := some (some 5) }) = some g1 := by
    rw [pmStep, show prov_mac_init g0 (some sampleKey) { size := some (some 5) } = some (g1, true) from e1]; rfl
  have s2 : pmStep X g1 (.update [1, 2]) = some g3 := by rw [pmStep, hu]
  have s3 : pmStep X g3 .final = some out.ctx := by rw [pmStep, f2]; rfl
  have s4 : pmStep X out.ctx (.setParams { key := some (some [1]) }) = some g4 := by rw [pmStep, h4]; rfl
  refine ⟨g0, prov_mac_dupctx g4, hn, ?_⟩
  rw [pmRun, s1, Option.bind_some, pmRun, s2, Option.bind_some, pmRun, s3, Option.bind_some, pmRun, s4, Option.bind_some, pmRun, pmStep,
    Option.bind_some, pmRun]

/-- And those of `C63_sections`. -/
example : 0 < 32 ∧ 32 < 2^31 ∧ 16 ∣ 32 ∧ (48 ≤ 96 ∧ 96 < 2^31 ∧ 16 ∣ 96) ∧ (prov_mac_newctx witRng .kuz_omac_acpkm).isSome := by decide

end Gost
