import Verif.Model.MacPkey
import Verif.Props.Imit
import Verif.Props.OmacAcpkm

/-!
# C61: MACs through keys

A MAC key is made with a generation context and any sequence of controls (binary or text), then used to sign any sequence of data
chunks, possibly with further controls in between.
-/

namespace Gost
open Spec

/-! ## Specification -/

/-- A control call: by command or as text. -/
inductive MacCall where
  | ctrl (c : MacCtrl)
  | text (type value : List Char)

/-- One control call on the data of a key type. -/
def macCall (k : MacKind) (T : MacTextFns) (d : MacData) : MacCall → MacData × Int
  | .ctrl c => macCtrl k d c
  | .text t v => macCtrlStr k T d t v

/-- A history of control calls, whatever they return. -/
def runMac (k : MacKind) (T : MacTextFns) (d : MacData) : List MacCall → MacData
  | [] => d
  | c :: cs => runMac k T (macCall k T d c).1 cs

/-- The largest MAC of a key type. -/
def MacKind.maxSize : MacKind → Nat
  | .mac | .mac12 | .magma => 8
  | .kuznyechik | .kuzAcpkm => 16

/-- Key types of the GOST 28147-89 MAC, which have a parameter set. -/
def MacKind.hasParam : MacKind → Bool
  | .mac | .mac12 => true
  | _ => false

/-- The key a call sets. -/
def MacCall.key (T : MacTextFns) : MacCall → Option Bytes
  | .ctrl (.setMacKey p1 b) => if p1 = 32 then some (b.take 32) else none
  | .text t v =>
    if t = "key".toList then (if v.length = 32 then some (v.map fun c => BitVec.ofNat 8 c.toNat) else none)
    else if t = "hexkey".toList then (T.hexstr2buf v).filter fun b => b.length = 32
    else none
  | _ => none

/-- The parameter set a call sets. -/
def MacCall.param (k : MacKind) (T : MacTextFns) : MacCall → Option ParamNID
  | .ctrl (.paramset p) => if k.hasParam then some p else none
  | .text t v => if k.hasParam ∧ t = "paramset".toList then T.txt2param v else none
  | _ => none

/-- The size a text sets: a decimal number, of which `int` keeps the low 32 bits, from 1 to 8. -/
def textSize (v : List Char) : Option Nat :=
  if (cStrtol v).2 = [] ∧ 1 ≤ longToInt (cStrtol v).1 ∧ longToInt (cStrtol v).1 ≤ 8 then some (longToInt (cStrtol v).1).toNat
  else none

/-- The MAC size a call sets: by command 1 to the largest MAC of the key type, as text 1 to 8. -/
def MacCall.size (k : MacKind) : MacCall → Option Nat
  | .ctrl (.macLen n) => if 1 ≤ n ∧ n ≤ k.maxSize then some n.toNat else none
  | .text t v => if t = "size".toList then textSize v else none
  | _ => none

/-- The last value set in a history. -/
def lastSet {α β : Type} (f : α → Option β) : List α → Option β
  | [] => none
  | c :: cs => match lastSet f cs with
    | some b => some b
    | none => f c

/-! ## Controls -/

theorem ctrl_effect (k : MacKind) (T : MacTextFns) (d : MacData) (c : MacCtrl) :
    (macCtrl k d c).1.key_set = (d.key_set || ((MacCall.ctrl c).key T).isSome) ∧
    (macCtrl k d c).1.key = ((MacCall.ctrl c).key T).getD d.key ∧
    (macCtrl k d c).1.mac_size = ((MacCall.ctrl c).size k).getD d.mac_size ∧
    (macCtrl k d c).1.mac_param_nid = ((MacCall.ctrl c).param k T).or d.mac_param_nid := by
  cases c with
  | md nid =>
    cases k <;> simp only [macCtrl, pkey_gost_mac_ctrl, pkey_gost_omac_ctrl, MacCall.key, MacCall.size, MacCall.param] <;> split <;>
      simp
  | pkcs7 => cases k <;> simp [macCtrl, pkey_gost_mac_ctrl, pkey_gost_omac_ctrl, MacCall.key, MacCall.size, MacCall.param]
  | setMacKey p1 b =>
    by_cases h : p1 = 32 <;> cases k <;>
      simp [macCtrl, pkey_gost_mac_ctrl, pkey_gost_omac_ctrl, MacCall.key, MacCall.size, MacCall.param, h]
  | paramset p => cases k <;> simp [macCtrl, pkey_gost_mac_ctrl, pkey_gost_omac_ctrl, MacCall.key, MacCall.size, MacCall.param,
      MacKind.hasParam]
  | macLen n =>
    have hm : macCtrl k d (.macLen n) = if n < 1 ∨ n > k.maxSize then (d, 0) else ({ d with mac_size := n.toNat }, 1) := by
      cases k <;> rfl
    rw [hm]
    simp only [MacCall.key, MacCall.size, MacCall.param]
    generalize k.maxSize = M
    by_cases h : n < 1 ∨ n > M
    · rw [if_pos h, if_neg (by omega)]; simp
    · rw [if_neg h, if_pos (by omega)]; simp
  | other => cases k <;> simp [macCtrl, pkey_gost_mac_ctrl, pkey_gost_omac_ctrl, MacCall.key, MacCall.size, MacCall.param]

theorem textKey_eq (T : MacTextFns) (v : List Char) :
    macTextKey T false v = (MacCall.text "key".toList v).key T ∧ macTextKey T true v = (MacCall.text "hexkey".toList v).key T := by
  constructor
  · simp only [macTextKey, MacCall.key, Bool.false_eq_true, if_false, if_true]
    split <;> simp_all
  · have h : ("hexkey".toList = "key".toList) = False := by decide
    simp only [macTextKey, MacCall.key, if_true, h, if_false]
    cases T.hexstr2buf v with
    | none => rfl
    | some b =>
      by_cases hb : b.length = 32 <;> simp [Option.filter, hb]

theorem textKey_len (T : MacTextFns) (h : Bool) (v : List Char) (b : Bytes) (e : macTextKey T h v = some b) : b.take 32 = b := by
  have : b.length = 32 := by
    unfold macTextKey at e
    split at e
    · split at e
      · cases e
      · split at e
        · cases e
        · cases e; simp_all
    · split at e
      · cases e
      · cases e; simp_all
  rw [List.take_of_length_le (by omega)]

/-- The size control given as text. -/
theorem textSize_ctrl (d : MacData) (v : List Char)
    (f : MacData → MacCtrl → MacData × Int)
    (hf : ∀ n, f d (.macLen n) = if n < 1 ∨ n > 8 then (d, 0) else ({ d with mac_size := n.toNat }, 1)) :
    (if (cStrtol v).2 ≠ [] then (d, 0) else f d (.macLen (longToInt (cStrtol v).1))).1 =
      { d with mac_size := (textSize v).getD d.mac_size } := by
  unfold textSize
  generalize cStrtol v = r
  by_cases h1 : r.2 = []
  · rw [if_neg (by simp [h1]), hf]
    by_cases h2 : longToInt r.1 < 1 ∨ longToInt r.1 > 8
    · rw [if_pos h2, if_neg (by omega)]; rfl
    · rw [if_neg h2, if_pos ⟨h1, by omega, by omega⟩]; rfl
  · rw [if_pos h1, if_neg (by simp [h1])]; rfl

theorem text_effect (k : MacKind) (T : MacTextFns) (d : MacData) (t v : List Char) :
    (macCtrlStr k T d t v).1.key_set = (d.key_set || ((MacCall.text t v).key T).isSome) ∧
    (macCtrlStr k T d t v).1.key = ((MacCall.text t v).key T).getD d.key ∧
    (macCtrlStr k T d t v).1.mac_size = ((MacCall.text t v).size k).getD d.mac_size ∧
    (macCtrlStr k T d t v).1.mac_param_nid = ((MacCall.text t v).param k T).or d.mac_param_nid := by
  have n1 : ("key".toList = "size".toList) = False := by decide
  have n2 : ("key".toList = "paramset".toList) = False := by decide
  have n3 : ("hexkey".toList = "size".toList) = False := by decide
  have n4 : ("hexkey".toList = "paramset".toList) = False := by decide
  have n5 : ("size".toList = "key".toList) = False := by decide
  have n6 : ("size".toList = "hexkey".toList) = False := by decide
  have n7 : ("size".toList = "paramset".toList) = False := by decide
  have n8 : ("paramset".toList = "key".toList) = False := by decide
  have n9 : ("paramset".toList = "hexkey".toList) = False := by decide
  have n10 : ("paramset".toList = "size".toList) = False := by decide
  have n11 : ("hexkey".toList = "key".toList) = False := by decide
  have e1 : ['k', 'e', 'y'] = "key".toList := rfl
  have e2 : ['h', 'e', 'x', 'k', 'e', 'y'] = "hexkey".toList := rfl
  have e3 : ['s', 'i', 'z', 'e'] = "size".toList := rfl
  have e4 : ['p', 'a', 'r', 'a', 'm', 's', 'e', 't'] = "paramset".toList := rfl
  have hkey : ∀ h v, (match macTextKey T h v with
      | none => (d, (0 : Int))
      | some b => pkey_gost_mac_ctrl d (.setMacKey 32 b)).1 =
      { d with key := (macTextKey T h v).getD d.key, key_set := d.key_set || (macTextKey T h v).isSome } := by
    intro h v
    cases e : macTextKey T h v with
    | none => simp
    | some b => simp [pkey_gost_mac_ctrl, textKey_len T h v b e]
  by_cases h1 : t = "key".toList
  · subst h1
    have hs : (macCtrlStr k T d "key".toList v).1 =
        { d with key := (macTextKey T false v).getD d.key, key_set := d.key_set || (macTextKey T false v).isSome } := by
      cases k <;> simp only [macCtrlStr, pkey_gost_mac_ctrl_str, pkey_gost_omac_ctrl_str, e1, if_true] <;> exact hkey false v
    rw [hs, (textKey_eq T v).1]
    simp only [MacCall.size, MacCall.param, n1, n2, and_false, if_false]
    simp
  by_cases h2 : t = "hexkey".toList
  · subst h2
    have hs : (macCtrlStr k T d "hexkey".toList v).1 =
        { d with key := (macTextKey T true v).getD d.key, key_set := d.key_set || (macTextKey T true v).isSome } := by
      cases k <;> simp only [macCtrlStr, pkey_gost_mac_ctrl_str, pkey_gost_omac_ctrl_str, e1, e2, n11, if_true, if_false] <;>
        exact hkey true v
    rw [hs, (textKey_eq T v).2]
    simp only [MacCall.size, MacCall.param, n3, n4, and_false, if_false]
    simp
  have hk0 : (MacCall.text t v).key T = none := by simp only [MacCall.key, if_neg h1, if_neg h2]
  rw [hk0]
  by_cases h3 : t = "size".toList
  · subst h3
    have hs : (macCtrlStr k T d "size".toList v).1 = { d with mac_size := (textSize v).getD d.mac_size } := by
      cases k <;> simp only [macCtrlStr, pkey_gost_mac_ctrl_str, pkey_gost_omac_ctrl_str, e1, e2, e3, n5, n6, if_true, if_false]
      · exact textSize_ctrl d v pkey_gost_mac_ctrl (fun n => rfl)
      · exact textSize_ctrl d v pkey_gost_mac_ctrl (fun n => rfl)
      · exact textSize_ctrl d v (pkey_gost_omac_ctrl 8) (fun n => rfl)
      · exact textSize_ctrl d v (pkey_gost_omac_ctrl 8) (fun n => rfl)
      · exact textSize_ctrl d v (pkey_gost_omac_ctrl 8) (fun n => rfl)
    rw [hs]
    simp only [MacCall.size, MacCall.param, n7, and_false, if_false, if_true]
    simp
  by_cases h4 : t = "paramset".toList
  · subst h4
    cases k <;> simp only [macCtrlStr, pkey_gost_mac_ctrl_str, pkey_gost_omac_ctrl_str, e1, e2, e3, e4, n8, n9, n10, if_true, if_false,
      MacCall.size, MacCall.param, MacKind.hasParam, and_self, Bool.false_eq_true, false_and] <;>
      first
        | (cases T.txt2param v <;> simp [pkey_gost_mac_ctrl])
        | simp
  · have h1' : ¬ t = ['k', 'e', 'y'] := h1
    have h2' : ¬ t = ['h', 'e', 'x', 'k', 'e', 'y'] := h2
    have h3' : ¬ t = ['s', 'i', 'z', 'e'] := h3
    have h4' : ¬ t = ['p', 'a', 'r', 'a', 'm', 's', 'e', 't'] := h4
    have hs : (macCtrlStr k T d t v).1 = d := by
      cases k <;> simp only [macCtrlStr, pkey_gost_mac_ctrl_str, pkey_gost_omac_ctrl_str, h1', h2', h3', h4', if_false]
    rw [hs]
    simp only [MacCall.size, MacCall.param, h3, h4, and_false, if_false]
    simp

theorem macCall_effect (k : MacKind) (T : MacTextFns) (d : MacData) (c : MacCall) :
    (macCall k T d c).1.key_set = (d.key_set || (c.key T).isSome) ∧
    (macCall k T d c).1.key = (c.key T).getD d.key ∧
    (macCall k T d c).1.mac_size = (c.size k).getD d.mac_size ∧
    (macCall k T d c).1.mac_param_nid = (c.param k T).or d.mac_param_nid := by
  cases c with
  | ctrl c => exact ctrl_effect k T d c
  | text t v => exact text_effect k T d t v

theorem lastSet_cons {α β : Type} (f : α → Option β) (c : α) (cs : List α) : lastSet f (c :: cs) = (lastSet f cs).or (f c) := by
  rw [lastSet]
  cases lastSet f cs <;> rfl

/-- **C61** After any history of controls, by command or as text, of which any may be refused, the data hold the key, the parameter set
and the size last set, or those the context began with. -/
theorem C61_last_settings (k : MacKind) (T : MacTextFns) (d : MacData) (cs : List MacCall) :
    (runMac k T d cs).key_set = (d.key_set || (lastSet (MacCall.key T) cs).isSome) ∧
    (runMac k T d cs).key = (lastSet (MacCall.key T) cs).getD d.key ∧
    (runMac k T d cs).mac_size = (lastSet (MacCall.size k) cs).getD d.mac_size ∧
    (runMac k T d cs).mac_param_nid = (lastSet (MacCall.param k T) cs).or d.mac_param_nid := by
  induction cs generalizing d with
  | nil => simp [runMac, lastSet]
  | cons c cs ih =>
    obtain ⟨i1, i2, i3, i4⟩ := ih (macCall k T d c).1
    obtain ⟨e1, e2, e3, e4⟩ := macCall_effect k T d c
    rw [runMac, i1, i2, i3, i4, e1, e2, e3, e4, lastSet_cons, lastSet_cons, lastSet_cons]
    refine ⟨?_, ?_, ?_, ?_⟩
    · cases lastSet (MacCall.key T) cs <;> simp
    · cases lastSet (MacCall.key T) cs <;> simp
    · cases lastSet (MacCall.size k) cs <;> simp
    · cases lastSet (MacCall.param k T) cs <;> simp

/-- Sizes set are in the range of the key type. -/
theorem size_range (k : MacKind) (c : MacCall) (n : Nat) (h : c.size k = some n) : 1 ≤ n ∧ n ≤ k.maxSize := by
  cases c with
  | ctrl c =>
    cases c with
    | macLen m =>
      simp only [MacCall.size] at h
      split at h
      · cases h; omega
      · cases h
    | _ => cases h
  | text t v =>
    simp only [MacCall.size, textSize] at h
    have h8 : 8 ≤ k.maxSize := by cases k <;> decide
    split at h
    · split at h
      · cases h; omega
      · cases h
    · cases h

theorem lastSet_prop {α β : Type} (f : α → Option β) (P : β → Prop) (hf : ∀ c b, f c = some b → P b) (cs : List α) (b : β)
    (h : lastSet f cs = some b) : P b := by
  induction cs generalizing b with
  | nil => cases h
  | cons c cs ih =>
    rw [lastSet_cons] at h
    cases e : lastSet f cs with
    | none => rw [e] at h; exact hf c b (by simpa using h)
    | some b' =>
      rw [e] at h
      have : b' = b := by simpa using h
      subst this; exact ih _ e

/-- The key a call sets is 32 bytes long, if the caller of `EVP_PKEY_CTRL_SET_MAC_KEY` with length 32 passes 32 bytes. -/
def MacCall.Valid : MacCall → Prop
  | .ctrl (.setMacKey p1 b) => p1 = 32 → b.length = 32
  | _ => True

theorem key_len (T : MacTextFns) (c : MacCall) (h : c.Valid) (b : Bytes) (e : c.key T = some b) : b.length = 32 := by
  cases c with
  | ctrl c =>
    cases c with
    | setMacKey p1 x =>
      simp only [MacCall.key] at e
      split at e
      · rename_i hp
        cases e
        have := h hp
        simp [this]
      · cases e
    | _ => cases e
  | text t v =>
    simp only [MacCall.key] at e
    split at e
    · split at e
      · cases e; simpa
      · cases e
    · split at e
      · have := Option.eq_some_of_filter_eq_some e
        simp [Option.filter_eq_some_iff] at e
        exact e.2
      · cases e

theorem lastKey_len (T : MacTextFns) (cs : List MacCall) (h : ∀ c ∈ cs, c.Valid) (b : Bytes) (e : lastSet (MacCall.key T) cs = some b) :
    b.length = 32 := by
  induction cs generalizing b with
  | nil => cases e
  | cons c cs ih =>
    rw [lastSet_cons] at e
    cases e' : lastSet (MacCall.key T) cs with
    | none => rw [e'] at e; exact key_len T c (h c (by simp)) b (by simpa using e)
    | some b' =>
      rw [e'] at e
      have : b' = b := by simpa using e
      subst this; exact ih (fun c hc => h c (by simp [hc])) _ e'

/-! ## Signing -/

/-- A step of a signing operation: a control on its method context, or data. -/
inductive MacOp where
  | call (c : MacCall)
  | data (x : Bytes)

/-- A history of a signing operation; `none`: an update call failed. -/
def runSign (k : MacKind) (T : MacTextFns) : MacSign → List MacOp → Option MacSign
  | s, [] => some s
  | s, .call c :: os => runSign k T { s with d := (macCall k T s.d c).1 } os
  | s, .data x :: os => if (s.update x).2 ≤ 0 then none else runSign k T (s.update x).1 os

/-- The controls, and the data, of a history. -/
def MacOp.calls : List MacOp → List MacCall
  | [] => []
  | .call c :: os => c :: calls os
  | .data _ :: os => calls os

def MacOp.chunks : List MacOp → List Bytes
  | [] => []
  | .call _ :: os => chunks os
  | .data x :: os => x :: chunks os

/-- Data alone. -/
def feedMac : MacMd → List Bytes → Option MacMd
  | m, [] => some m
  | m, x :: xs => if (m.update x).2 ≤ 0 then none else feedMac (m.update x).1 xs

theorem runSign_eq (k : MacKind) (T : MacTextFns) (s : MacSign) (os : List MacOp) :
    runSign k T s os = (feedMac s.m (MacOp.chunks os)).map fun m => { s with d := runMac k T s.d (MacOp.calls os), m := m } := by
  induction os generalizing s with
  | nil => rfl
  | cons o os ih =>
    cases o with
    | call c => rw [runSign, ih]; rfl
    | data x =>
      rw [runSign, MacOp.chunks, feedMac]
      by_cases h : (s.m.update x).2 ≤ 0
      · have h' : (s.update x).2 ≤ 0 := h
        rw [if_pos h, if_pos h']; rfl
      · have h' : ¬ (s.update x).2 ≤ 0 := h
        rw [if_neg h, if_neg h', ih]; rfl

/-- The full-length MAC of a digest, by the standards: the key, the parameter set of the GOST 28147-89 MAC if one was chosen. -/
def stdMac (X : Crypto) (md : MacNid) (param : Option ParamNID) (key m : Bytes) : Bytes :=
  match md with
  | .gost28147_mac => macMeshFold (M89 (boxOf (param.getD .cryptoProA))) (mesh89 (boxOf (param.getD .cryptoProA))) key 0 (zeros 8)
      (macBlocks m)
  | .gost_mac_12 => macMeshFold (M89 (boxOf (param.getD .tc26Z))) (mesh89 (boxOf (param.getD .tc26Z))) key 0 (zeros 8) (macBlocks m)
  | .magma_mac => X.cmac .magma key m
  | .grasshopper_mac => X.cmac .kuznyechik key m
  | .kuz_omac_acpkm => omacAcpkm EKuz 4096 4096 key m
  | .magma_omac_acpkm | .other => []

/-- The combinations of key type and digest that give MACs of any size the key type allows. -/
def Fits : MacKind → MacNid → Prop
  | .mac, md | .mac12, md => md = .gost28147_mac ∨ md = .gost_mac_12
  | .magma, md => md = .magma_mac ∨ md = .grasshopper_mac ∨ md = .kuz_omac_acpkm
  | .kuznyechik, md | .kuzAcpkm, md => md = .grasshopper_mac ∨ md = .kuz_omac_acpkm

/-- GOST 28147-89 MACs of exactly eight bytes are those of C18. -/
def Regular (md : MacNid) (m : Bytes) : Prop := md = .gost28147_mac ∨ md = .gost_mac_12 → m.length ≠ 8

/-! ### Setting the length last -/

theorem mesh_size (c : ImitCtx) (n : Nat) (d : Bytes) :
    mac_block_mesh { c with dgst_size := n } d = { mac_block_mesh c d with dgst_size := n } := by
  unfold mac_block_mesh
  by_cases h : c.key_meshing = true ∧ c.count = 1024
  · have h' : ({ c with dgst_size := n } : ImitCtx).key_meshing = true ∧ ({ c with dgst_size := n } : ImitCtx).count = 1024 := h
    simp only [if_pos h, if_pos h']
  · have h' : ¬ (({ c with dgst_size := n } : ImitCtx).key_meshing = true ∧ ({ c with dgst_size := n } : ImitCtx).count = 1024) := h
    simp only [if_neg h, if_neg h']

theorem loop_size (c : ImitCtx) (n : Nat) (p : Bytes) :
    imitLoop { c with dgst_size := n } p = ({ (imitLoop c p).1 with dgst_size := n }, (imitLoop c p).2) := by
  induction h : p.length using Nat.strong_induction_on generalizing c p with
  | _ l ih =>
    rw [imitLoop.eq_1 c p, imitLoop.eq_1 _ p]
    by_cases h8 : 8 < p.length
    · rw [dif_pos h8, dif_pos h8, mesh_size, ih (p.drop 8).length (by simp; omega) _ _ rfl]
    · rw [dif_neg h8, dif_neg h8]

theorem rest_size (c : ImitCtx) (n : Nat) (p : Bytes) :
    imitRest { c with dgst_size := n } p = { imitRest c p with dgst_size := n } := by
  unfold imitRest
  rw [loop_size]

theorem update_size (c : ImitCtx) (n : Nat) (d : Bytes) :
    gost_imit_update { c with dgst_size := n } d = ({ (gost_imit_update c d).1 with dgst_size := n }, (gost_imit_update c d).2) := by
  obtain ⟨cc, bf, pb, ct, km, bl, ks, ds⟩ := c
  unfold gost_imit_update
  cases ks with
  | false => simp only [Bool.false_eq_true, not_false_eq_true, if_true]
  | true =>
    simp only [not_true, if_false]
    by_cases h2 : bl = 0
    · simp only [h2, ne_eq, not_true, if_false]
      rw [← rest_size]
    · simp only [h2, ne_eq, not_false_eq_true, if_true]
      by_cases h3 : (imitFill bl pb d).1 = 8
      · simp only [h3, if_true]
        rw [← rest_size, ← mesh_size]
      · simp only [h3, if_false]

theorem acpkm_update_size (c : OmacCtx) (n : Nat) (d : Bytes) :
    omac_acpkm_imit_update { c with dgst_size := n } d = (omac_acpkm_imit_update c d).map fun c => { c with dgst_size := n } := by
  obtain ⟨cm, ds, ks⟩ := c
  unfold omac_acpkm_imit_update
  cases ks with
  | false => simp
  | true =>
    cases cm with
    | none => simp
    | some m =>
      simp only [not_true, if_false, Option.bind_some]
      cases CMAC_ACPKM_Update m d <;> rfl

theorem xofLen_update (m : MacMd) (n : Int) (x : Bytes) :
    (m.xofLen n).1.update x = (((m.update x).1.xofLen n).1, (m.update x).2) := by
  cases m with
  | imit c b =>
    simp only [MacMd.xofLen, MacMd.update, gost_imit_set_len]
    split
    · rfl
    · simp only; rw [update_size]
  | omac c =>
    simp only [MacMd.xofLen, MacMd.update, omac_xof_len, omac_imit_update]
    cases hk : c.key_set <;> simp only [Bool.not_false, Bool.not_true, if_true, Bool.false_eq_true, if_false] <;> split <;> simp_all
  | acpkm c =>
    simp only [MacMd.xofLen, MacMd.update]
    unfold omac_acpkm_set_len
    by_cases h : n < 1 ∨ n > 16
    · simp only [if_pos h]
      cases omac_acpkm_imit_update c x <;> rfl
    · simp only [if_neg h]
      rw [acpkm_update_size]
      cases omac_acpkm_imit_update c x <;> rfl

theorem feed_xofLen (m : MacMd) (n : Int) (xs : List Bytes) :
    feedMac (m.xofLen n).1 xs = (feedMac m xs).map fun m => (m.xofLen n).1 := by
  induction xs generalizing m with
  | nil => rfl
  | cons x xs ih =>
    rw [feedMac, feedMac, xofLen_update]
    simp only
    by_cases h : (m.update x).2 ≤ 0
    · rw [if_pos h, if_pos h]; rfl
    · rw [if_neg h, if_neg h, ih]

/-- The MAC the digest itself gives when it is keyed directly and asked for `size` bytes: for the GOST 28147-89 MAC a session of its
digest (C18), for the others the standards' MAC, cut. -/
def digestMac (X : Crypto) (rng : Nat → Fin 8 → W32) (md : MacNid) (param : Option ParamNID) (key : Bytes) (size : Nat)
    (chunks : List Bytes) : Option Bytes :=
  match md with
  | .gost28147_mac =>
    imitMac (gost_imit_init (freshImit rng) Gost28147_CryptoProParamSetA) Gost28147_CryptoProParamSetA
      (param.map fun p => (gost_cipher_list p).1) key size chunks
  | .gost_mac_12 =>
    imitMac (gost_imit_init (freshImit rng) Gost28147_TC26ParamSetZ) Gost28147_TC26ParamSetZ
      (param.map fun p => (gost_cipher_list p).1) key size chunks
  | .magma_mac | .grasshopper_mac | .kuz_omac_acpkm => some ((stdMac X md param key chunks.flatten).take size)
  | .magma_omac_acpkm | .other => none

theorem feed_then (X : Crypto) (m0 : MacMd) (n : Int) (xs : List Bytes) (m' : MacMd) (t : Bytes)
    (h1 : feedMac (m0.xofLen n).1 xs = some m') (h2 : m'.final X = some t) :
    ∃ m, feedMac m0 xs = some m ∧ (m.xofLen n).1.final X = some t := by
  rw [feed_xofLen] at h1
  cases hm : feedMac m0 xs with
  | none => rw [hm] at h1; cases h1
  | some m =>
    rw [hm] at h1
    refine ⟨m, rfl, ?_⟩
    have : (m.xofLen n).1 = m' := by simpa using h1
    rw [this, h2]

theorem imit_fold_none (xs : List Bytes) :
    xs.foldl (fun (st : Option ImitCtx) d => st.bind fun c =>
      if (gost_imit_update c d).2 = 1 then some (gost_imit_update c d).1 else none) none = none := by
  induction xs with
  | nil => rfl
  | cons x xs ih => exact ih

theorem imit_fold (b : SubstBlock) (xs : List Bytes) (c c' : ImitCtx)
    (h : xs.foldl (fun (st : Option ImitCtx) d => st.bind fun c =>
      if (gost_imit_update c d).2 = 1 then some (gost_imit_update c d).1 else none) (some c) = some c') :
    feedMac (.imit c b) xs = some (.imit c' b) := by
  induction xs generalizing c with
  | nil => cases h; rfl
  | cons x xs ih =>
    rw [List.foldl_cons, Option.bind_some] at h
    by_cases hr : (gost_imit_update c x).2 = 1
    · rw [if_pos hr] at h
      have hu : ((MacMd.imit c b).update x).2 = 1 := hr
      rw [feedMac, if_neg (by rw [hu]; decide)]
      exact ih _ h
    · rw [if_neg hr, imit_fold_none] at h; cases h

theorem imit_session (X : Crypto) (c : ImitCtx) (b : SubstBlock) (param : Option SubstBlock) (key : Bytes) (size : Int)
    (xs : List Bytes) (t : Bytes) (h : imitMac c b param key size xs = some t) :
    ∃ m, feedMac (.imit (gost_imit_set_key c b param key) b) xs = some m ∧ (m.xofLen size).1.final X = some t := by
  unfold imitMac at h
  simp only at h
  by_cases hr : (gost_imit_set_len (gost_imit_set_key c b param key) size).2 = 1
  · rw [if_neg (by simp [hr])] at h
    obtain ⟨c', h1, h2⟩ := Option.bind_eq_some_iff.mp h
    exact feed_then X _ size xs (.imit c' b) t (imit_fold b xs _ c' h1) h2
  · rw [if_pos hr] at h; cases h

theorem omac_session (X : Crypto) (n : OmacCipher) (key acc : Bytes) (c : OmacDigestCtx) (h1 : c.key_set = true)
    (h2 : c.cmac_ctx = some (key, acc)) (h3 : c.cipher_name = n) (size : Nat) (hs : 1 ≤ size) (hs' : size ≤ n.block)
    (xs : List Bytes) :
    ∃ m, feedMac (.omac c) xs = some m ∧ (m.xofLen size).1.final X = some ((X.cmac n key (acc ++ xs.flatten)).take size) := by
  induction xs generalizing c acc with
  | nil =>
    refine ⟨_, rfl, ?_⟩
    simp only [MacMd.xofLen, MacMd.final]
    have : omac_xof_len c size = ({ c with dgst_size := size }, 1) := by
      unfold omac_xof_len; rw [h3, if_neg (by omega)]; rfl
    rw [this]
    simp [omac_imit_final, h1, h2, h3]
  | cons x xs ih =>
    have hu : omac_imit_update c x = ({ c with cmac_ctx := some (key, acc ++ x) }, 1) := by
      unfold omac_imit_update; rw [if_neg (by simp [h1]), h2]; rfl
    have hu' : (MacMd.omac c).update x = (.omac { c with cmac_ctx := some (key, acc ++ x) }, 1) := by
      simp only [MacMd.update, hu]
    obtain ⟨m, e1, e2⟩ := ih (acc ++ x) { c with cmac_ctx := some (key, acc ++ x) } h1 rfl h3
    refine ⟨m, ?_, ?_⟩
    · rw [feedMac, hu', if_neg (by simp)]; exact e1
    · rw [e2, List.flatten_cons, List.append_assoc]

theorem acpkm_feed (xs : List Bytes) (c c' : OmacCtx) (h : omacFeed c xs = some c') : feedMac (.acpkm c) xs = some (.acpkm c') := by
  induction xs generalizing c with
  | nil => cases h; rfl
  | cons x xs ih =>
    rw [omacFeed] at h
    obtain ⟨c1, h1, h2⟩ := Option.bind_eq_some_iff.mp h
    have hu : (MacMd.acpkm c).update x = (.acpkm c1, 1) := by simp only [MacMd.update, h1]
    rw [feedMac, hu, if_neg (by simp)]
    exact ih _ h2

theorem acpkm_session (X : Crypto) (c : OmacCtx) (key : Bytes) (hk : key.length = 32) (size : Nat) (hs : 1 ≤ size) (hs' : size ≤ 16)
    (xs : List Bytes) :
    ∃ m, feedMac (.acpkm (omac_acpkm_set_key c key).1) xs = some m ∧
      (m.xofLen size).1.final X = some ((omacAcpkm EKuz 4096 4096 key xs.flatten).take size) := by
  have h := C21_omac_acpkm_default c key hk size hs hs' xs
  unfold omacMac omacSections at h
  rw [Option.bind_some, if_pos rfl] at h
  unfold omacRun at h
  by_cases hl : (omac_acpkm_set_len (omac_acpkm_set_key c key).1 size).2 = 1
  · rw [if_pos hl] at h
    obtain ⟨c', h1, h2⟩ := Option.bind_eq_some_iff.mp h
    exact feed_then X _ size xs (.acpkm c') _ (acpkm_feed xs _ c' h1) h2
  · rw [if_neg hl] at h; cases h

/-- Starting a signing operation with a key of 32 bytes and a fitting digest. -/
theorem sign_start (X : Crypto) (rng : Nat → Fin 8 → W32) (k : MacKind) (md : MacNid) (hf : Fits k md) (pkey : GostMacKey)
    (hk : pkey.key.length = 32) :
    ∃ m0, EVP_DigestSignInit rng k pkey md =
        some { d := { macPmethInit k (some pkey) with md := some md }, pkey := some pkey, m := m0 } ∧
      ∀ size, 1 ≤ size → size ≤ k.maxSize → ∀ xs, ∃ m, feedMac m0 xs = some m ∧
        (m.xofLen (size : Nat)).1.final X = digestMac X rng md pkey.mac_param_nid pkey.key size xs := by
  have hmd : macCtrl k (macPmethInit k (some pkey)) (.md md) = ({ macPmethInit k (some pkey) with md := some md }, 1) := by
    cases k <;> cases md <;> simp only [Fits, reduceCtorEq, or_self, or_false, or_true, false_or] at hf <;> rfl
  have himit : ∀ (b : SubstBlock) (size : Nat), 1 ≤ size → size ≤ 8 → ∀ xs : List Bytes,
      ∃ m, feedMac (.imit (gost_imit_set_key (gost_imit_init (freshImit rng) b) b
        (pkey.mac_param_nid.map fun p => (gost_cipher_list p).1) pkey.key) b) xs = some m ∧ (m.xofLen (size : Nat)).1.final X =
        imitMac (gost_imit_init (freshImit rng) b) b (pkey.mac_param_nid.map fun p => (gost_cipher_list p).1) pkey.key size xs := by
    intro b size h1 h8 xs
    obtain ⟨bs, p, e1, e2, e3, e4⟩ := imitMac_eq (gost_imit_init (freshImit rng) b) b
      (pkey.mac_param_nid.map fun p => (gost_cipher_list p).1) pkey.key hk size h1 h8 xs
    rw [e4]
    exact imit_session X _ b _ pkey.key size xs _ e4
  have homac : ∀ (n : OmacCipher) (size : Nat), 1 ≤ size → size ≤ n.block → ∀ xs : List Bytes,
      ∃ m, feedMac (.omac (omac_set_key (omac_init n) 0 pkey.key).1) xs = some m ∧
        (m.xofLen (size : Nat)).1.final X = some ((X.cmac n pkey.key xs.flatten).take size) := by
    intro n size h1 h2 xs
    have hc : (omac_set_key (omac_init n) 0 pkey.key).1 = { omac_key (omac_init n) pkey.key with key := pkey.key.take 32 } := rfl
    rw [hc]
    have ht : pkey.key.take 32 = pkey.key := List.take_of_length_le (by omega)
    have := omac_session X n pkey.key [] { omac_key (omac_init n) pkey.key with key := pkey.key.take 32 } rfl
      (by simp [omac_key, ht]) rfl size h1 h2 xs
    simpa using this
  have key : ∀ m1 m0, md.fresh rng = some m1 → m1.setKey (.macKey pkey) = (m0, 1) → EVP_DigestSignInit rng k pkey md =
      some { d := { macPmethInit k (some pkey) with md := some md }, pkey := some pkey, m := m0 } := by
    intro m1 m0 h1 h2
    unfold EVP_DigestSignInit
    simp only [hmd, h1]
    have hks : (macPmethInit k (some pkey)).key_set = false := rfl
    have hd : macDigestInit { macPmethInit k (some pkey) with md := some md } (some pkey) m1 = (m0, 1) := by
      unfold macDigestInit
      simp only [hks, Bool.not_false, if_true, h2]
    rw [hd]
    simp
  have h8 : k.maxSize ≤ 16 := by cases k <;> decide
  cases md with
  | gost28147_mac =>
    refine ⟨_, key _ _ rfl rfl, fun size h1 h2 xs => himit _ size h1 ?_ xs⟩
    cases k <;> simp only [Fits, reduceCtorEq, or_self] at hf <;> exact h2
  | gost_mac_12 =>
    refine ⟨_, key _ _ rfl rfl, fun size h1 h2 xs => himit _ size h1 ?_ xs⟩
    cases k <;> simp only [Fits, reduceCtorEq, or_self] at hf <;> exact h2
  | magma_mac =>
    refine ⟨_, key _ _ rfl rfl, fun size h1 h2 xs => homac .magma size h1 ?_ xs⟩
    cases k <;> simp only [Fits, reduceCtorEq, or_self] at hf <;> exact h2
  | grasshopper_mac => exact ⟨_, key _ _ rfl rfl, fun size h1 h2 xs => homac .kuznyechik size h1 (le_trans h2 h8) xs⟩
  | kuz_omac_acpkm => exact ⟨_, key _ _ rfl rfl, fun size h1 h2 xs => acpkm_session X _ pkey.key hk size h1 (by omega) xs⟩
  | magma_omac_acpkm => cases k <;> simp [Fits] at hf
  | other => cases k <;> simp [Fits] at hf

/-- **C61** A MAC through keys.  A key is generated after any history `cs` of controls, by command or as text, any of which may be
refused, that sets some key; a signing operation with it and a fitting digest runs through any history `os` of data and further
controls.  Then every call that must succeed does, and the MAC is the one the digest itself gives for the concatenated data under the
key last set and the parameter set last set, of the size last set in the whole history (the default of the key type if none was).  The
length reported is that size. -/
theorem C61_mac_through_key (X : Crypto) (rng : Nat → Fin 8 → W32) (T : MacTextFns) (k : MacKind) (md : MacNid)
    (hf : Fits k.generated md) (cs : List MacCall) (hv : ∀ c ∈ cs, c.Valid) (key : Bytes) (hkey : lastSet (MacCall.key T) cs = some key)
    (os : List MacOp) :
    let param := lastSet (MacCall.param k T) cs
    let size := ((lastSet (MacCall.size k.generated) (MacOp.calls os)).or (lastSet (MacCall.size k) cs)).getD k.defaultSize
    ∃ (pk : GostMacKey) (s0 s : MacSign) (mac : Bytes),
      pkey_gost_mac_keygen_base (runMac k T (macPmethInit k none) cs) = some pk ∧
      EVP_DigestSignInit rng k.generated pk md = some s0 ∧ runSign k.generated T s0 os = some s ∧
      digestMac X rng md param key size (MacOp.chunks os) = some mac ∧ s.final X = (mac, size, 1) := by
  intro param size
  obtain ⟨g1, g2, g3, g4⟩ := C61_last_settings k T (macPmethInit k none) cs
  have hk32 := lastKey_len T cs hv key hkey
  rw [hkey] at g1 g2
  have hm : k.generated.maxSize = k.maxSize := by cases k <;> rfl
  generalize hd : runMac k T (macPmethInit k none) cs = d at *
  have hks : d.key_set = true := by rw [g1]; simp
  have hkk : d.key = key := by rw [g2]; rfl
  have hsz : d.mac_size = (lastSet (MacCall.size k) cs).getD k.defaultSize := g3
  have hpp : d.mac_param_nid = param := by rw [g4]; exact Option.or_none
  refine ⟨{ key := d.key, mac_param_nid := d.mac_param_nid, mac_size := d.mac_size }, ?_⟩
  obtain ⟨m0, e1, e2⟩ := sign_start X rng k.generated md hf { key := d.key, mac_param_nid := d.mac_param_nid, mac_size := d.mac_size }
    (by simpa [hkk] using hk32)
  have hsize : ∀ d0 : MacData, d0 = { macPmethInit k.generated
      (some { key := d.key, mac_param_nid := d.mac_param_nid, mac_size := d.mac_size }) with md := some md } →
      (runMac k.generated T d0 (MacOp.calls os)).mac_size = size := by
    intro d0 h0
    rw [(C61_last_settings k.generated T d0 (MacOp.calls os)).2.2.1, h0]
    show _ = ((lastSet (MacCall.size k.generated) (MacOp.calls os)).or (lastSet (MacCall.size k) cs)).getD k.defaultSize
    show (lastSet (MacCall.size k.generated) (MacOp.calls os)).getD d.mac_size = _
    rw [hsz]
    cases lastSet (MacCall.size k.generated) (MacOp.calls os) <;> rfl
  have hr : 1 ≤ size ∧ size ≤ k.generated.maxSize := by
    rw [hm]
    show 1 ≤ ((lastSet (MacCall.size k.generated) (MacOp.calls os)).or (lastSet (MacCall.size k) cs)).getD k.defaultSize ∧ _ ≤ _
    cases h1 : lastSet (MacCall.size k.generated) (MacOp.calls os) with
    | some n =>
      have := lastSet_prop _ (fun n => 1 ≤ n ∧ n ≤ k.generated.maxSize) (size_range k.generated) _ n h1
      rw [hm] at this
      simpa [size, h1] using this
    | none =>
      cases h2 : lastSet (MacCall.size k) cs with
      | some n =>
        have := lastSet_prop _ (fun n => 1 ≤ n ∧ n ≤ k.maxSize) (size_range k) _ n h2
        simpa [size, h1, h2] using this
      | none =>
        have : 1 ≤ k.defaultSize ∧ k.defaultSize ≤ k.maxSize := by cases k <;> decide
        simpa [size, h1, h2] using this
  obtain ⟨m, f1, f2⟩ := e2 size hr.1 hr.2 (MacOp.chunks os)
  have hrun := runSign_eq k.generated T (MacSign.mk { macPmethInit k.generated
      (some { key := d.key, mac_param_nid := d.mac_param_nid, mac_size := d.mac_size }) with md := some md }
      (some { key := d.key, mac_param_nid := d.mac_param_nid, mac_size := d.mac_size }) m0) os
  rw [f1, Option.map_some] at hrun
  have hex : ∃ mac, digestMac X rng md param key size (MacOp.chunks os) = some mac := by
    have himit : ∀ (b : SubstBlock), size ≤ 8 → ∃ mac, imitMac (gost_imit_init (freshImit rng) b) b
        (param.map fun p => (gost_cipher_list p).1) key size (MacOp.chunks os) = some mac := by
      intro b h8
      obtain ⟨_, _, _, _, _, e⟩ := imitMac_eq (gost_imit_init (freshImit rng) b) b (param.map fun p => (gost_cipher_list p).1) key hk32
        size hr.1 h8 (MacOp.chunks os)
      exact ⟨_, e⟩
    cases md with
    | gost28147_mac =>
      refine himit _ (le_trans hr.2 ?_)
      cases k <;> simp only [Fits, MacKind.generated, reduceCtorEq, or_self] at hf <;> decide
    | gost_mac_12 =>
      refine himit _ (le_trans hr.2 ?_)
      cases k <;> simp only [Fits, MacKind.generated, reduceCtorEq, or_self] at hf <;> decide
    | magma_mac => exact ⟨_, rfl⟩
    | grasshopper_mac => exact ⟨_, rfl⟩
    | kuz_omac_acpkm => exact ⟨_, rfl⟩
    | magma_omac_acpkm => cases k <;> simp [Fits, MacKind.generated] at hf
    | other => cases k <;> simp [Fits, MacKind.generated] at hf
  obtain ⟨mac, hmac⟩ := hex
  refine ⟨_, _, mac, ?_, e1, hrun, hmac, ?_⟩
  · unfold pkey_gost_mac_keygen_base
    rw [if_neg (by simp [hks])]
  · have hfin : (m.xofLen (size : Nat)).1.final X = some mac := by rw [f2, hpp, hkk, hmac]
    unfold MacSign.final pkey_gost_mac_copy pkey_gost_mac_signctx
    simp only
    rw [hsize _ rfl, hfin]

/-- **C61** The OMACs: the MAC through keys is the standard's (CMAC with Magma or Kuznyechik, OMAC-ACPKM), cut to the size. -/
theorem C61_omac_is_standard (X : Crypto) (rng : Nat → Fin 8 → W32) (md : MacNid)
    (h : md = .magma_mac ∨ md = .grasshopper_mac ∨ md = .kuz_omac_acpkm) (param : Option ParamNID) (key : Bytes) (size : Nat)
    (chunks : List Bytes) : digestMac X rng md param key size chunks = some ((stdMac X md param key chunks.flatten).take size) := by
  rcases h with rfl | rfl | rfl <;> rfl

/-- **C61** The GOST 28147-89 MAC: the same, but for messages of eight bytes given in several chunks, which are C18's finding. -/
theorem C61_mac89_is_standard (X : Crypto) (rng : Nat → Fin 8 → W32) (md : MacNid) (h : md = .gost28147_mac ∨ md = .gost_mac_12)
    (param : Option ParamNID) (key : Bytes) (hk : key.length = 32) (size : Nat) (h1 : 1 ≤ size) (h8 : size ≤ 8) (chunks : List Bytes)
    (hc : chunks.flatten.length ≠ 8 ∨ chunks.length = 1) :
    digestMac X rng md param key size chunks = some ((stdMac X md param key chunks.flatten).take size) := by
  have hb : ∀ (b : SubstBlock) (p0 : ParamNID), b = (gost_cipher_list p0).1 →
      kboxinit ((param.map fun p => (gost_cipher_list p).1).getD b) = boxOf (param.getD p0) := by
    rintro b p0 rfl
    cases param <;> rfl
  have hgen : ∀ (b : SubstBlock) (p0 : ParamNID), b = (gost_cipher_list p0).1 →
      imitMac (gost_imit_init (freshImit rng) b) b (param.map fun p => (gost_cipher_list p).1) key size chunks =
        some ((macMeshFold (M89 (boxOf (param.getD p0))) (mesh89 (boxOf (param.getD p0))) key 0 (zeros 8)
          (macBlocks chunks.flatten)).take size) := by
    intro b p0 e
    rcases hc with hc | hc
    · rw [C18_mac_any_chunking_partial _ b _ key hk size h1 h8 chunks hc, hb b p0 e]
    · obtain ⟨m, rfl⟩ := List.length_eq_one_iff.mp hc
      rw [C18_mac_single_chunk_partial _ b _ key hk size h1 h8 m, hb b p0 e]
      simp
  rcases h with rfl | rfl
  · exact hgen _ .cryptoProA rfl
  · exact hgen _ .tc26Z rfl

/-- **C61** A key can be generated exactly if one was set. -/
theorem C61_keygen_needs_key (k : MacKind) (T : MacTextFns) (cs : List MacCall) :
    pkey_gost_mac_keygen_base (runMac k T (macPmethInit k none) cs) = none ↔ lastSet (MacCall.key T) cs = none := by
  have h := (C61_last_settings k T (macPmethInit k none) cs).1
  have h0 : (macPmethInit k none).key_set = false := rfl
  rw [h0, Bool.false_or] at h
  unfold pkey_gost_mac_keygen_base
  rw [h]
  cases lastSet (MacCall.key T) cs <;> simp

/-- **C61** `EVP_PKEY_new_mac_key` takes exactly keys of 32 bytes, and gives the size of the key type. -/
theorem C61_new_mac_key (k : MacKind) (key : Bytes) :
    EVP_PKEY_new_mac_key k key =
      if key.length = 32 then some { key := key, mac_param_nid := none, mac_size := k.defaultSize } else none := by
  have hc : macCtrl k (macPmethInit k none) (.setMacKey key.length key) =
      if (key.length : Int) ≠ 32 then (macPmethInit k none, 0) else ({ macPmethInit k none with key := key.take 32, key_set := true }, 1) := by
    cases k <;> rfl
  unfold EVP_PKEY_new_mac_key
  rw [hc]
  by_cases h : key.length = 32
  · have h' : (key.length : Int) = 32 := by omega
    rw [if_pos h, if_neg (show ¬ ((key.length : Int) ≠ 32) from fun hn => hn h'), if_neg (by simp)]
    simp only [pkey_gost_mac_keygen_base, Bool.not_true, Bool.false_eq_true, if_false]
    rw [List.take_of_length_le (by omega)]
    rfl
  · have h' : (key.length : Int) ≠ 32 := by omega
    rw [if_neg h, if_pos h', if_pos (by simp)]

/-- **C61** A control that reports failure has no effect. -/
theorem C61_refused_no_effect (k : MacKind) (T : MacTextFns) (d : MacData) (c : MacCall) (h : (macCall k T d c).2 ≤ 0) :
    (macCall k T d c).1 = d := by
  have hm : ∀ c, (pkey_gost_mac_ctrl d c).2 ≤ 0 → (pkey_gost_mac_ctrl d c).1 = d := by
    intro c h
    cases c with
    | md nid => unfold pkey_gost_mac_ctrl at h ⊢; simp only at h ⊢; split at h <;> simp_all
    | pkcs7 => rfl
    | setMacKey p1 b => unfold pkey_gost_mac_ctrl at h ⊢; simp only at h ⊢; split at h <;> simp_all
    | paramset p => simp [pkey_gost_mac_ctrl] at h
    | macLen n => unfold pkey_gost_mac_ctrl at h ⊢; simp only at h ⊢; split at h <;> simp_all
    | other => rfl
  have ho : ∀ M c, (pkey_gost_omac_ctrl M d c).2 ≤ 0 → (pkey_gost_omac_ctrl M d c).1 = d := by
    intro M c h
    cases c with
    | md nid => unfold pkey_gost_omac_ctrl at h ⊢; simp only at h ⊢; split at h <;> simp_all
    | pkcs7 => rfl
    | setMacKey p1 b => unfold pkey_gost_omac_ctrl at h ⊢; simp only at h ⊢; split at h <;> simp_all
    | paramset p => rfl
    | macLen n => unfold pkey_gost_omac_ctrl at h ⊢; simp only at h ⊢; split at h <;> simp_all
    | other => rfl
  have hmt : ∀ t v, (pkey_gost_mac_ctrl_str T d t v).2 ≤ 0 → (pkey_gost_mac_ctrl_str T d t v).1 = d := by
    intro t v h
    unfold pkey_gost_mac_ctrl_str at h ⊢
    split
    · rename_i ht
      rw [if_pos ht] at h
      cases e : macTextKey T false v with
      | none => rfl
      | some b => rw [e] at h; exact hm _ h
    · rename_i ht
      rw [if_neg ht] at h
      split
      · rename_i ht2
        rw [if_pos ht2] at h
        cases e : macTextKey T true v with
        | none => rfl
        | some b => rw [e] at h; exact hm _ h
      · rename_i ht2
        rw [if_neg ht2] at h
        split
        · rename_i ht3
          rw [if_pos ht3] at h
          simp only at h ⊢
          split
          · rfl
          · rename_i hr
            rw [if_neg hr] at h
            exact hm _ h
        · rename_i ht3
          rw [if_neg ht3] at h
          split
          · rename_i ht4
            rw [if_pos ht4] at h
            cases e : T.txt2param v with
            | none => rfl
            | some b => rw [e] at h; exact hm _ h
          · rfl
  have hot : ∀ M t v, (pkey_gost_omac_ctrl_str T M d t v).2 ≤ 0 → (pkey_gost_omac_ctrl_str T M d t v).1 = d := by
    intro M t v h
    unfold pkey_gost_omac_ctrl_str at h ⊢
    split
    · rename_i ht
      rw [if_pos ht] at h
      cases e : macTextKey T false v with
      | none => rfl
      | some b => rw [e] at h; exact hm _ h
    · rename_i ht
      rw [if_neg ht] at h
      split
      · rename_i ht2
        rw [if_pos ht2] at h
        cases e : macTextKey T true v with
        | none => rfl
        | some b => rw [e] at h; exact hm _ h
      · rename_i ht2
        rw [if_neg ht2] at h
        split
        · rename_i ht3
          rw [if_pos ht3] at h
          simp only at h ⊢
          split
          · rfl
          · rename_i hr
            rw [if_neg hr] at h
            exact ho M _ h
        · rfl
  cases c with
  | ctrl c => cases k <;> first | exact hm c h | exact ho _ c h
  | text t v => cases k <;> first | exact hmt t v h | exact hot _ t v h

/-! ## Sizes given as text -/

/-- A decimal digit as a character. -/
def digitChar (d : Fin 10) : Char := Char.ofNat (48 + d.val)

/-- The number written by a list of digits. -/
def decValue (ds : List (Fin 10)) : Nat := ds.foldl (fun n d => 10 * n + d.val) 0

theorem decDigit_facts : ∀ d : Fin 10, (digitChar d).isDigit = true ∧ (digitChar d).toNat - 48 = d.val ∧ strtolSpace (digitChar d) = false ∧
    digitChar d ≠ '-' ∧ digitChar d ≠ '+' := by decide

theorem strtolDigits_eq (ds : List (Fin 10)) (n k : Nat) :
    strtolDigits (ds.map digitChar) n k = (ds.foldl (fun n d => 10 * n + d.val) n, k + ds.length, []) := by
  induction ds generalizing n k with
  | nil => rfl
  | cons d ds ih =>
    obtain ⟨h1, h2, _⟩ := decDigit_facts d
    rw [List.map_cons, strtolDigits, if_pos h1, h2, ih]
    simp only [List.foldl_cons, List.length_cons]
    congr 2; omega

theorem strtol_dec (ds : List (Fin 10)) (hne : ds ≠ []) : cStrtol (ds.map digitChar) = (clampLong (decValue ds), []) := by
  cases ds with
  | nil => exact absurd rfl hne
  | cons d ds =>
    obtain ⟨_, _, h3, h4, h5⟩ := decDigit_facts d
    have hd : ((d :: ds).map digitChar).dropWhile strtolSpace = (d :: ds).map digitChar := by
      rw [List.map_cons, List.dropWhile_cons, h3]; rfl
    have hs : strtolSign ((d :: ds).map digitChar) = (false, (d :: ds).map digitChar) := by
      rw [List.map_cons]
      unfold strtolSign
      split
      · rename_i cs h; injection h with h _; exact absurd h h4
      · rename_i cs h; injection h with h _; exact absurd h h5
      · rfl
    unfold cStrtol
    simp only [hd, hs, strtolDigits_eq]
    rw [if_neg (by simp)]
    simp [decValue]

/-- **C61** A size written in decimal digits (with any number of leading zeros) is accepted exactly from 1 to 8, if it fits an `int`. -/
theorem C61_text_size (ds : List (Fin 10)) (hne : ds ≠ []) (hb : decValue ds < 2^31) :
    textSize (ds.map digitChar) = if 1 ≤ decValue ds ∧ decValue ds ≤ 8 then some (decValue ds) else none := by
  unfold textSize
  rw [strtol_dec ds hne]
  generalize decValue ds = n at *
  have hc : clampLong (n : Int) = n := by
    unfold clampLong
    rw [if_neg (by omega), if_neg (by omega)]
  have hl : longToInt (n : Int) = n := by
    unfold longToInt
    omega
  simp only [hc, hl]
  by_cases h : 1 ≤ n ∧ n ≤ 8
  · rw [if_pos h, if_pos ⟨trivial, by omega, by omega⟩]; simp
  · rw [if_neg h, if_neg (by omega)]

/-- **C61** Finding: the text is read as a `long` and passed as an `int`, so that "4294967300" sets the size 4. -/
theorem C61_text_size_wraps (T : MacTextFns) (d : MacData) :
    macCtrlStr .mac T d "size".toList "4294967300".toList = ({ d with mac_size := 4 }, 1) := by
  have h : cStrtol "4294967300".toList = (4294967300, []) := by decide +kernel
  have n1 : ("size".toList = ['k', 'e', 'y']) = False := by decide
  have n2 : ("size".toList = ['h', 'e', 'x', 'k', 'e', 'y']) = False := by decide
  have n3 : ("size".toList = ['s', 'i', 'z', 'e']) = True := by decide
  simp only [macCtrlStr, pkey_gost_mac_ctrl_str, n1, n2, n3, if_false, if_true, h, ne_eq, not_true]
  rfl

/-- **C61** Finding: for Kuznyechik keys a size from 9 to 16 is accepted by command and refused as text. -/
theorem C61_kuznyechik_text_size (T : MacTextFns) (d : MacData) :
    macCtrl .kuznyechik d (.macLen 16) = ({ d with mac_size := 16 }, 1) ∧
    macCtrlStr .kuznyechik T d "size".toList "16".toList = (d, 0) := by
  refine ⟨rfl, ?_⟩
  have h : cStrtol "16".toList = (16, []) := by decide +kernel
  have n1 : ("size".toList = ['k', 'e', 'y']) = False := by decide
  have n2 : ("size".toList = ['h', 'e', 'x', 'k', 'e', 'y']) = False := by decide
  have n3 : ("size".toList = ['s', 'i', 'z', 'e']) = True := by decide
  simp only [macCtrlStr, pkey_gost_omac_ctrl_str, n1, n2, n3, if_false, if_true, h, ne_eq, not_true]
  rfl

/-- **C61** Finding: a Kuznyechik MAC key is accepted with the Magma digest.  The size of 16 is refused by that digest, which goes
unnoticed: 8 bytes are written and 16 reported. -/
theorem C61_kuznyechik_key_magma_digest (X : Crypto) (rng : Nat → Fin 8 → W32) (key : Bytes) (hk : key.length = 32) (x : Bytes) :
    ∃ pk s, EVP_PKEY_new_mac_key .kuznyechik key = some pk ∧ EVP_DigestSignInit rng .kuznyechik pk .magma_mac = some s ∧
      (s.update x).2 = 1 ∧ (s.update x).1.final X = (X.cmac .magma key x, 16, 1) ∧ (X.cmac .magma key x).length = 8 := by
  refine ⟨_, _, by rw [C61_new_mac_key, if_pos hk], rfl, rfl, ?_, X.cmac_length _ _ _⟩
  have ht : (X.cmac .magma (key.take 32) x).take 8 = X.cmac .magma key x := by
    have e1 : key.take 32 = key := List.take_of_length_le (by omega)
    rw [e1]
    exact List.take_of_length_le (by rw [X.cmac_length]; exact Nat.le_refl _)
  rw [← ht]
  rfl

/-- **C61** Finding: when the key is set in the signing context itself, the parameter set chosen there (or in the key) is not used. -/
theorem C61_raw_key_ignores_paramset (d : MacData) (pkey : Option GostMacKey) (p : ParamNID) (b : Bytes) (m : MacMd) :
    macDigestInit (runMac .mac ⟨fun _ => none, fun _ => none⟩ d [.ctrl (.setMacKey 32 b), .ctrl (.paramset p)]) pkey m =
      m.setKey (.raw (b.take 32)) ∧ (MacSetKey.raw (b.take 32)).param = none := ⟨rfl, rfl⟩

/-! ## Witnesses -/

/-- A history with refused controls, two keys, and sizes by command and as text. -/
example : ∃ pk s0 s mac,
    pkey_gost_mac_keygen_base (runMac .mac ⟨fun _ => none, fun _ => some .test⟩ (macPmethInit .mac none)
      [.ctrl (.setMacKey 32 sampleKey), .ctrl (.macLen 9), .text "paramset".toList ['x'], .text "size".toList "7".toList]) = some pk ∧
    EVP_DigestSignInit witRng .mac pk .gost_mac_12 = some s0 ∧
    runSign .mac ⟨fun _ => none, fun _ => some .test⟩ s0 [.data [1, 2], .call (.ctrl (.macLen 5)), .data [3]] = some s ∧
    digestMac realCrypto witRng .gost_mac_12 (some .test) sampleKey 5 [[1, 2], [3]] = some mac ∧ s.final realCrypto = (mac, 5, 1) := by
  have hs : lastSet (MacCall.size .mac) [.ctrl (.setMacKey 32 sampleKey), .ctrl (.macLen 9), .text "paramset".toList ['x'],
      .text "size".toList "7".toList] = some 7 := by decide +kernel
  have := C61_mac_through_key realCrypto witRng ⟨fun _ => none, fun _ => some .test⟩ .mac .gost_mac_12 (Or.inr rfl)
    [.ctrl (.setMacKey 32 sampleKey), .ctrl (.macLen 9), .text "paramset".toList ['x'], .text "size".toList "7".toList]
    (by simp [MacCall.Valid, sampleKey]) sampleKey rfl [.data [1, 2], .call (.ctrl (.macLen 5)), .data [3]]
  exact this

end Gost
