import Verif.Model.AcpkmOmac
import Verif.Spec.AcpkmOmac
import Verif.Props.MacPkey
import Verif.Props.Cms
import Verif.Props.Tls

/-!
# C62, C27, C55: CTR-ACPKM with OMAC

A context of either cipher is prepared by any sequence of initialisations and loads of parameters, initialised with a key, used on data
in any chunks and finished.
-/

namespace Gost
open Spec

/-! ## The calls of both ciphers -/

/-- The context of the mode. -/
abbrev AoState : OmacCipher → Type
  | .magma => CipherCtx
  | .kuznyechik => KCtx

/-- A context as EVP allocates it. -/
def aoFresh (rng : Nat → Fin 8 → W32) : (n : OmacCipher) → AoCtx (AoState n)
  | .magma => { c := freshCtx rng false, omac_ctx := none, kdf_seed := zeros 8, tag := zeros 8 }
  | .kuznyechik => { c := freshKCtx, omac_ctx := none, kdf_seed := zeros 8, tag := zeros 16 }

/-- The init callback: the context, the value returned, the random draws left. -/
def aoInit (X : Crypto) (rng : Nat → Fin 8 → W32) : (n : OmacCipher) → AoCtx (AoState n) → Option Bytes → Option Bytes → Bool →
    List Bytes → AoCtx (AoState n) × Int × List Bytes
  | .magma => magma_cipher_init_ctr_acpkm_omac X rng
  | .kuznyechik => gost_grasshopper_cipher_init_ctracpkm_omac X rng

/-- The cipher callback with data. -/
def aoUpdate : (n : OmacCipher) → AoCtx (AoState n) → Bytes → AoRes (AoState n)
  | .magma => magma_cipher_do_ctr_acpkm_omac
  | .kuznyechik => gost_grasshopper_cipher_do_ctracpkm_omac

/-- The cipher callback at the end. -/
def aoFinal (X : Crypto) : (n : OmacCipher) → AoCtx (AoState n) → AoRes (AoState n)
  | .magma => magma_cipher_final_ctr_acpkm_omac X
  | .kuznyechik => gost_grasshopper_cipher_final_ctracpkm_omac X

/-- Loading algorithm parameters: the context and the value returned. -/
def aoGetParams (cd : Asn1Codec) : (n : OmacCipher) → AoCtx (AoState n) → AsnType → AoCtx (AoState n) × Int
  | .magma, a, p =>
    let r := magma_get_asn1_parameters cd a.c a.kdf_seed p
    ({ a with c := r.2.1, kdf_seed := r.2.2 }, r.1)
  | .kuznyechik, a, p =>
    let r := gost_grasshopper_get_asn1_parameters cd a.c a.kdf_seed p
    ({ a with c := r.2.1, kdf_seed := r.2.2 }, r.1)

/-- Storing algorithm parameters: the context, the parameters (`none`: untouched), the value returned. -/
def aoSetParams (cd : Asn1Codec) : (n : OmacCipher) → AoCtx (AoState n) → AoCtx (AoState n) × Option AsnType × Int
  | .magma, a =>
    let r := magma_set_asn1_parameters cd a.c a.kdf_seed
    ({ a with c := r.2.1 }, some r.2.2, r.1)
  | .kuznyechik, a =>
    let r := gost_grasshopper_set_asn1_parameters cd a.c a.kdf_seed
    ({ a with c := r.2.1 }, r.2.2, r.1)

/-- `EVP_CTRL_KEY_MESH`. -/
def aoMesh : (n : OmacCipher) → AoCtx (AoState n) → Nat → AoCtx (AoState n) × Int
  | .magma, a, s => ({ a with c := (magma_cipher_ctl_key_mesh a.c s).1 }, (magma_cipher_ctl_key_mesh a.c s).2)
  | .kuznyechik, a, s =>
    ({ a with c := (gost_grasshopper_cipher_ctl_key_mesh a.c s).1 }, (gost_grasshopper_cipher_ctl_key_mesh a.c s).2)

/-- Setting the section size if wanted; `none`: the control failed. -/
def aoSetSection (n : OmacCipher) (a : AoCtx (AoState n)) : Option Nat → Option (AoCtx (AoState n))
  | none => some a
  | some s => if (aoMesh n a s).2 = 1 then some (aoMesh n a s).1 else none

/-- The section size without that control. -/
def aoSection : OmacCipher → Nat
  | .magma => 1024
  | .kuznyechik => 4096

/-- Data in chunks; every call must report the length of its input. `none`: a call fails or crashes. -/
def aoFeed (n : OmacCipher) : AoCtx (AoState n) → List Bytes → Option (AoCtx (AoState n) × Bytes)
  | a, [] => some (a, [])
  | a, x :: xs =>
    match aoUpdate n a x with
    | .nullDeref => none
    | .ret a' o r => if r = x.length then (aoFeed n a' xs).map fun t => (t.1, o ++ t.2) else none

/-- A call made before the context is keyed for use: an initialisation (with or without key and IV, in either direction), or a load of
parameters.  Whatever it returns, the next call is made. -/
inductive AoPrep where
  | init (key iv : Option Bytes) (enc : Bool)
  | params (p : AsnType)

def aoPrep (cd : Asn1Codec) (X : Crypto) (rng : Nat → Fin 8 → W32) (n : OmacCipher) :
    AoCtx (AoState n) × List Bytes → List AoPrep → AoCtx (AoState n) × List Bytes
  | s, [] => s
  | s, .init key iv enc :: ps =>
    let r := aoInit X rng n s.1 key iv enc s.2
    aoPrep cd X rng n (r.1, r.2.2) ps
  | s, .params p :: ps => aoPrep cd X rng n ((aoGetParams cd n s.1 p).1, s.2) ps

/-- The IV in force: the first half of the original IV. -/
def aoIv : (n : OmacCipher) → AoCtx (AoState n) → Bytes
  | .magma, a => a.c.oiv.take 4
  | .kuznyechik, a => a.c.oiv.take 8

/-! ## The digest -/

/-- The MAC key of `EVP_PKEY_new_mac_key`. -/
def macKeyOf (n : OmacCipher) (km : Bytes) : GostMacKey := { key := km, mac_param_nid := none, mac_size := (aoKind n).defaultSize }

/-- The digest context keyed with `km` after the data `acc`. -/
def omacSign (n : OmacCipher) (km acc : Bytes) : MacSign :=
  MacSign.mk { macPmethInit (aoKind n) (some (macKeyOf n km)) with md := some (aoNid n) }
    (some (macKeyOf n km))
    (.omac { cmac_ctx := some (km, acc), dgst_size := n.block, cipher_name := n, key_set := true, key := km })

theorem omacSign_init (rng : Nat → Fin 8 → W32) (n : OmacCipher) (km : Bytes) (h : km.length = 32) :
    EVP_DigestSignInit rng (aoKind n) (macKeyOf n km) (aoNid n) = some (omacSign n km []) := by
  have ht : km.take 32 = km := List.take_of_length_le (by omega)
  have e : EVP_DigestSignInit rng (aoKind n) (macKeyOf n km) (aoNid n) = some (MacSign.mk
      { macPmethInit (aoKind n) (some (macKeyOf n km)) with md := some (aoNid n) } (some (macKeyOf n km))
      (.omac { cmac_ctx := some (km.take 32, []), dgst_size := n.block, cipher_name := n, key_set := true, key := km.take 32 })) := by
    cases n <;> rfl
  rw [e, ht]
  rfl

theorem omacSign_update (n : OmacCipher) (km acc x : Bytes) : (omacSign n km acc).update x = (omacSign n km (acc ++ x), 1) := rfl

theorem omacSign_final (X : Crypto) (n : OmacCipher) (km acc : Bytes) :
    (omacSign n km acc).final X = (X.cmac n km acc, n.block, 1) := by
  have ht : (X.cmac n km acc).take n.block = X.cmac n km acc := List.take_of_length_le (by rw [X.cmac_length])
  cases n
  · show ((X.cmac .magma km acc).take 8, 8, (1 : Int)) = _
    rw [show (X.cmac .magma km acc).take 8 = X.cmac .magma km acc from ht]; rfl
  · show ((X.cmac .kuznyechik km acc).take 16, 16, (1 : Int)) = _
    rw [show (X.cmac .kuznyechik km acc).take 16 = X.cmac .kuznyechik km acc from ht]; rfl

theorem kdfLabel_eq : ("kdf tree".toUTF8.toList.map fun b => BitVec.ofNat 8 b.toNat) = aoKdfLabel := by decide +kernel

theorem keyPair_eq (X : Crypto) (key seed : Bytes) : (acpkmOmacKeyPair X.hmac key seed).1.length = 32 ∧
    (acpkmOmacKeyPair X.hmac key seed).2.length = 32 ∧
    gost_kdftree2012_256 X 64 key aoKdfLabel seed 1 =
      some ((acpkmOmacKeyPair X.hmac key seed).1 ++ (acpkmOmacKeyPair X.hmac key seed).2) := by
  have h := C35_is_kdf_tree X key aoKdfLabel seed 2 1 (by decide) (by decide) (by decide)
  unfold acpkmOmacKeyPair
  rw [kdfLabel_eq]
  have hl : (kdfTree X.hmac key 1 aoKdfLabel seed 2).length = 64 := by
    simp [kdfTree, List.range_succ, X.hmac_length]
  refine ⟨by simp [hl], by simp [hl], ?_⟩
  rw [List.take_append_drop]
  exact h

theorem acpkmOmacKeys_eq (X : Crypto) (rng : Nat → Fin 8 → W32) (n : OmacCipher) (key seed : Bytes) (hk : key.length = 32)
    (hs : seed.length = 8) :
    acpkmOmacKeys X rng n key seed =
      some (omacSign n (acpkmOmacKeyPair X.hmac key seed).2 [], (acpkmOmacKeyPair X.hmac key seed).1) := by
  obtain ⟨h1, h2, h3⟩ := keyPair_eq X key seed
  have ek : key.take 32 = key := List.take_of_length_le (by omega)
  have es : seed.take 8 = seed := List.take_of_length_le (by omega)
  unfold acpkmOmacKeys
  rw [ek, es, h3]
  generalize (acpkmOmacKeyPair X.hmac key seed).1 = ke at *
  generalize (acpkmOmacKeyPair X.hmac key seed).2 = km at *
  have e1 : (ke ++ km).take 32 = ke := by rw [← h1]; exact List.take_left
  have e2 : (ke ++ km).drop 32 = km := by rw [← h1]; exact List.drop_left
  have e3 : km.take 32 = km := List.take_of_length_le (by omega)
  have hk' : EVP_PKEY_new_mac_key (aoKind n) km = some (macKeyOf n km) := by rw [C61_new_mac_key, if_pos h2]; rfl
  simp only [e1, e2, e3, hk', omacSign_init rng n km h2]

/-! ## Data -/

/-- The underlying CTR-ACPKM callback. -/
def aoDo : (n : OmacCipher) → AoState n → Bytes → AoState n × Bytes
  | .magma => magma_cipher_do_ctr
  | .kuznyechik => gost_grasshopper_cipher_do_ctracpkm

def aoEnc : (n : OmacCipher) → AoState n → Bool
  | .magma, c => c.encrypting
  | .kuznyechik, c => c.encrypting

theorem whileBlocks_keeps {S T : Type} (f : S → T) (bl : Nat) (body : S → Bytes → S × Bytes) (h : ∀ s b, f (body s b).1 = f s) (s : S)
    (inp : Bytes) : f (whileBlocks bl body s inp).1 = f s := by
  induction hn : inp.length using Nat.strong_induction_on generalizing s inp with
  | _ n ih =>
    rw [whileBlocks]
    split
    · next hc =>
      subst hn
      show f (whileBlocks bl body (body s (inp.take bl)).1 (inp.drop bl)).1 = f s
      rw [ih (inp.drop bl).length (by simp; omega) _ _ rfl, h]
    · rfl

theorem aoDo_enc (n : OmacCipher) (c : AoState n) (x : Bytes) : aoEnc n (aoDo n c x).1 = aoEnc n c := by
  cases n with
  | magma =>
    have hg : ∀ e : CipherCtx, (magmaCtrGamma e).encrypting = e.encrypting := by
      intro e; unfold magmaCtrGamma apply_acpkm_magma; dsimp only; split <;> rfl
    have hb : ∀ (s : CipherCtx) b, (magmaCtrBody s b).1.encrypting = s.encrypting := fun s b => hg s
    show (magma_cipher_do_ctr c x).1.encrypting = c.encrypting
    unfold magma_cipher_do_ctr
    have hw := fun (s : CipherCtx) inp => whileBlocks_keeps (·.encrypting) 8 magmaCtrBody hb s inp
    dsimp only at hw ⊢
    split
    · exact (hg _).trans (hw _ _)
    · exact hw _ _
  | kuznyechik =>
    have hg : ∀ e : KCtx, (kAcpkmGamma e).encrypting = e.encrypting := by
      intro e; unfold kAcpkmGamma apply_acpkm_grasshopper; dsimp only; split <;> rfl
    have hb : ∀ (s : KCtx) b, (kAcpkmBody s b).1.encrypting = s.encrypting := fun s b => hg s
    show (gost_grasshopper_cipher_do_ctracpkm c x).1.encrypting = c.encrypting
    unfold gost_grasshopper_cipher_do_ctracpkm
    have hw := fun (s : KCtx) inp => whileBlocks_keeps (·.encrypting) 16 kAcpkmBody hb s inp
    dsimp only at hw ⊢
    split
    · exact (hg _).trans (hw _ _)
    · exact hw _ _

theorem aoUpdate_eq (n : OmacCipher) (a : AoCtx (AoState n)) (km acc : Bytes) (h : a.omac_ctx = some (omacSign n km acc)) (x : Bytes) :
    aoUpdate n a x = .ret { a with
      c := (aoDo n a.c x).1
      omac_ctx := some (omacSign n km (acc ++ if aoEnc n a.c then x else (aoDo n a.c x).2)) } (aoDo n a.c x).2 x.length := by
  cases n with
  | magma => simp only [aoUpdate, magma_cipher_do_ctr_acpkm_omac, h, omacSign_update]; rfl
  | kuznyechik => simp only [aoUpdate, gost_grasshopper_cipher_do_ctracpkm_omac, h, omacSign_update]; rfl

theorem aoFeed_eq (n : OmacCipher) (chunks : List Bytes) (a : AoCtx (AoState n)) (km acc : Bytes)
    (h : a.omac_ctx = some (omacSign n km acc)) :
    aoFeed n a chunks = some ({ a with
      c := (feed (aoDo n) a.c chunks).1
      omac_ctx := some (omacSign n km (acc ++ if aoEnc n a.c then chunks.flatten else (feed (aoDo n) a.c chunks).2)) },
      (feed (aoDo n) a.c chunks).2) ∧ aoEnc n (feed (aoDo n) a.c chunks).1 = aoEnc n a.c := by
  induction chunks generalizing a acc with
  | nil =>
    refine ⟨?_, rfl⟩
    cases a
    simp only at h
    simp [aoFeed, feed, h]
  | cons x xs ih =>
    obtain ⟨i1, i2⟩ := ih { a with
      c := (aoDo n a.c x).1
      omac_ctx := some (omacSign n km (acc ++ if aoEnc n a.c then x else (aoDo n a.c x).2)) } _ rfl
    refine ⟨?_, ?_⟩
    · rw [aoFeed, aoUpdate_eq n a km acc h x]
      simp only [if_true, i1, Option.map_some, feed, List.flatten_cons, aoDo_enc]
      cases aoEnc n a.c <;> simp [List.append_assoc]
    · simp only [feed]
      rw [i2]
      exact aoDo_enc n a.c x

/-- A context ready for data: keyed, with the stream of CTR-ACPKM ahead. -/
structure AoReady (n : OmacCipher) (sec : Nat) (ke km iv : Bytes) (enc : Bool) (a : AoCtx (AoState n)) : Prop where
  omac : a.omac_ctx = some (omacSign n km [])
  enc : aoEnc n a.c = enc
  stream : ∀ chunks, (feed (aoDo n) a.c chunks).2 = acpkmCrypt engineE n sec ke iv chunks.flatten
  tag : a.tag.length = n.block

theorem acpkmCrypt_length (n : OmacCipher) (sec : Nat) (k iv m : Bytes) : (acpkmCrypt engineE n sec k iv m).length = m.length :=
  xorStream_length _ _ _

theorem acpkmCrypt_twice (n : OmacCipher) (sec : Nat) (k iv m : Bytes) :
    acpkmCrypt engineE n sec k iv (acpkmCrypt engineE n sec k iv m) = m := xorStream_twice _ _ _

theorem acpkmCrypt_prefix (n : OmacCipher) (sec : Nat) (k iv m t : Bytes) :
    (acpkmCrypt engineE n sec k iv (m ++ t)).take m.length = acpkmCrypt engineE n sec k iv m := by
  unfold acpkmCrypt xorStream
  rw [List.mapIdx_append, List.take_left' (by simp)]

theorem crypt_swap (n : OmacCipher) (sec : Nat) (k iv x y : Bytes) :
    acpkmCrypt engineE n sec k iv x = y ↔ x = acpkmCrypt engineE n sec k iv y :=
  ⟨fun h => by rw [← h, acpkmCrypt_twice], fun h => by rw [h, acpkmCrypt_twice]⟩

/-- The next call continues the stream. -/
theorem ready_next (n : OmacCipher) (sec : Nat) (ke km iv : Bytes) (enc : Bool) (a : AoCtx (AoState n))
    (h : AoReady n sec ke km iv enc a) (chunks : List Bytes) (t : Bytes) :
    (aoDo n (feed (aoDo n) a.c chunks).1 t).2 = (acpkmCrypt engineE n sec ke iv (chunks.flatten ++ t)).drop chunks.flatten.length := by
  have h1 := h.stream (chunks ++ [t])
  rw [feed_concat, h.stream chunks] at h1
  simp only [List.flatten_append, List.flatten_cons, List.flatten_nil, List.append_nil] at h1
  rw [← h1, List.drop_left' (acpkmCrypt_length _ _ _ _ _)]

theorem aoMacSize_eq (n : OmacCipher) : aoMacSize n = n.block := by cases n <;> rfl

theorem block_le (n : OmacCipher) : n.block ≤ 16 := by cases n <;> decide

theorem block_ne (n : OmacCipher) : n.block ≠ 0 := by cases n <;> decide

theorem calculated_take (n : OmacCipher) (b : Bytes) (h : b.length = n.block) :
    (memcpy (zeros 16) b b.length).take n.block = b := by
  rw [memcpy, List.take_length, ← h, List.take_left]

theorem aoFinal_eq (X : Crypto) (n : OmacCipher) (a : AoCtx (AoState n)) (km acc : Bytes) (h : a.omac_ctx = some (omacSign n km acc)) :
    aoFinal X n a =
      if aoEnc n a.c then
        .ret { a with c := (aoDo n a.c (X.cmac n km acc)).1, tag := memcpy a.tag (aoDo n a.c (X.cmac n km acc)).2 n.block } [] 0
      else if (aoDo n a.c (a.tag.take n.block)).2 ≠ X.cmac n km acc then
        .ret { a with c := (aoDo n a.c (a.tag.take n.block)).1 } [] (-1)
      else .ret { a with c := (aoDo n a.c (a.tag.take n.block)).1 } [] 0 := by
  have hc := calculated_take n (X.cmac n km acc) (X.cmac_length _ _ _)
  have key : ∀ e : Bool, gost2015_final_call X (aoDo n) e a (omacSign n km acc) =
      if e then
        .ret { a with c := (aoDo n a.c (X.cmac n km acc)).1, tag := memcpy a.tag (aoDo n a.c (X.cmac n km acc)).2 n.block } [] 0
      else if (aoDo n a.c (a.tag.take n.block)).2 ≠ X.cmac n km acc then
        .ret { a with c := (aoDo n a.c (a.tag.take n.block)).1 } [] (-1)
      else .ret { a with c := (aoDo n a.c (a.tag.take n.block)).1 } [] 0 := by
    intro e
    unfold gost2015_final_call
    simp only [omacSign_final, hc, if_neg (block_ne n)]
  have hf : aoFinal X n a = gost2015_final_call X (aoDo n) (aoEnc n a.c) a (omacSign n km acc) := by
    cases n with
    | magma =>
      show magma_cipher_final_ctr_acpkm_omac X a = _
      unfold magma_cipher_final_ctr_acpkm_omac
      rw [h]
      rfl
    | kuznyechik =>
      show gost_grasshopper_cipher_final_ctracpkm_omac X a = _
      unfold gost_grasshopper_cipher_final_ctracpkm_omac
      rw [h]
      have ha : ({ a with omac_ctx := some (omacSign .kuznyechik km acc) } : AoCtx (AoState .kuznyechik)) = a := by
        cases a; simp only at h; rw [h]
      have hs : (if a.c.encrypting = true then ((omacSign .kuznyechik km acc).update []).1 else omacSign .kuznyechik km acc) =
          omacSign .kuznyechik km acc := by
        rw [omacSign_update, List.append_nil]; exact ite_self _
      simp only [hs]
      exact congrArg (fun x => gost2015_final_call X gost_grasshopper_cipher_do_ctracpkm a.c.encrypting x _) ha
  rw [hf]
  exact key _

/-! ## Contexts not used on data -/

/-- What any preparation leaves: lengths, a zero second half of the IV, and the S-boxes of Magma once initialised. -/
def AoUnused : (n : OmacCipher) → AoCtx (AoState n) → Prop
  | .magma, a => a.kdf_seed.length = 8 ∧ a.tag.length = 8 ∧ a.c.num = 0 ∧ a.c.count = 0 ∧ a.c.oiv.length = 8 ∧
      a.c.iv.length = 8 ∧ a.c.iv.drop 4 = zeros 4 ∧ a.c.buf.length = 8 ∧ (a.c.appData = true → a.c.cctx.box = magmaBox)
  | .kuznyechik, a => a.kdf_seed.length = 8 ∧ a.tag.length = 16 ∧ a.c.oiv.length = 16 ∧ a.c.iv.length = 16 ∧
      a.c.iv.drop 8 = zeros 8 ∧ a.c.partial_buffer.length = 16

/-- Whether the context has its application data. -/
def aoApp : (n : OmacCipher) → AoCtx (AoState n) → Bool
  | .magma, a => a.c.appData
  | .kuznyechik, _ => true

/-- The IVs given to calls have the length of the cipher. -/
def AoPrep.Valid (n : OmacCipher) : AoPrep → Prop
  | .init _ iv _ => ∀ v, iv = some v → v.length = n.block / 2
  | .params _ => True

theorem memcpy_short (dst src : Bytes) (n : Nat) (h : src.length = n) : memcpy dst src n = src ++ dst.drop n := by
  rw [memcpy, List.take_of_length_le (by omega)]

theorem magma_init_shape (e : CipherCtx) (key iv : Option Bytes) (enc : Bool) (hb : e.appData = true → e.cctx.box = magmaBox) :
    ∃ f : CipherCtx, magma_cipher_init e key iv enc 4 true = { setIv f iv 4 with key_meshing := 1024 } ∧ f.num = e.num ∧
      (e.count = 0 → f.count = 0) ∧ f.oiv = e.oiv ∧ f.iv = e.iv ∧ f.buf = e.buf ∧ f.appData = true ∧ f.cctx.box = magmaBox ∧
      f.encrypting = enc ∧ ∀ k, key = some k → k.length = 32 → magma_get_key f.cctx = k := by
  have h1 : ∃ g : CipherCtx, (if ({ e with encrypting := enc } : CipherCtx).appData then { e with encrypting := enc } else
        { gost_cipher_set_param { e with encrypting := enc } .tc26Z with appData := true }) = g ∧ g.num = e.num ∧
      (e.count = 0 → g.count = 0) ∧ g.oiv = e.oiv ∧ g.iv = e.iv ∧ g.buf = e.buf ∧ g.appData = true ∧ g.cctx.box = magmaBox ∧
      g.encrypting = enc := by
    cases ha : e.appData with
    | true => exact ⟨_, if_pos rfl, rfl, id, rfl, rfl, rfl, rfl, hb ha, rfl⟩
    | false =>
      refine ⟨_, if_neg (by simp), ?_⟩
      unfold gost_cipher_set_param gost_init
      exact ⟨rfl, fun _ => rfl, rfl, rfl, rfl, rfl, rfl, rfl⟩
  obtain ⟨g, hg, g1, g2, g3, g4, g5, g6, g7, g8⟩ := h1
  unfold magma_cipher_init
  dsimp only at hg ⊢
  rw [hg]
  cases key with
  | none => exact ⟨g, rfl, g1, g2, g3, g4, g5, g6, g7, g8, fun k hk => by cases hk⟩
  | some k =>
    refine ⟨{ g with cctx := magma_key g.cctx k, masterKey := k.take 32 }, rfl, g1, g2, g3, g4, g5, g6, g7, g8, ?_⟩
    intro k' hk' hl
    cases hk'
    exact magma_get_key_set _ _ hl

theorem magma_init_facts (e : CipherCtx) (key iv : Option Bytes) (enc : Bool) (hiv : ∀ v, iv = some v → v.length = 4)
    (hb : e.appData = true → e.cctx.box = magmaBox) :
    let e' := magma_cipher_init e key iv enc 4 true
    e'.num = e.num ∧ (e.count = 0 → e'.count = 0) ∧ e'.oiv = iv.getD (e.oiv.take 4) ++ e.oiv.drop 4 ∧
      e'.iv = iv.getD (e.oiv.take 4) ++ e.iv.drop 4 ∧ e'.buf = e.buf ∧ e'.appData = true ∧ e'.cctx.box = magmaBox ∧
      e'.key_meshing = 1024 ∧ e'.encrypting = enc ∧
      ∀ k, key = some k → k.length = 32 → magma_get_key e'.cctx = k := by
  obtain ⟨f, hf, f1, f2, f3, f4, f5, f6, f7, f8, f9⟩ := magma_init_shape e key iv enc hb
  intro e'
  have he : e' = { setIv f iv 4 with key_meshing := 1024 } := hf
  rw [he]
  refine ⟨f1, f2, ?_, ?_, f5, f6, f7, rfl, f8, f9⟩
  · cases iv with
    | none =>
      show f.oiv = _
      rw [f3]; exact (List.take_append_drop 4 e.oiv).symm
    | some v =>
      show memcpy f.oiv v 4 = _
      rw [f3, memcpy_short _ _ _ (hiv v rfl)]; rfl
  · cases iv with
    | none =>
      show memcpy f.iv f.oiv 4 = _
      rw [f3, f4]; rfl
    | some v =>
      show memcpy f.iv (memcpy f.oiv v 4) 4 = _
      rw [f3, f4, memcpy_short _ _ _ (hiv v rfl), memcpy, List.take_left' (hiv v rfl)]; rfl

theorem kuz_init_facts (e : KCtx) (key iv : Option Bytes) (enc : Bool) (hiv : ∀ v, iv = some v → v.length = 8) :
    let e' := gost_grasshopper_cipher_init e key iv enc 8
    e'.num = e.num ∧ e'.section_size = e.section_size ∧ e'.type = e.type ∧ e'.oiv = iv.getD (e.oiv.take 8) ++ e.oiv.drop 8 ∧
      e'.iv = iv.getD (e.oiv.take 8) ++ e.iv.drop 8 ∧ e'.partial_buffer = e.partial_buffer ∧ e'.encrypting = enc := by
  cases iv with
  | none =>
    refine ⟨by cases key <;> rfl, by cases key <;> rfl, by cases key <;> rfl, ?_, ?_, by cases key <;> rfl, by cases key <;> rfl⟩
    · cases key <;> exact (List.take_append_drop 8 e.oiv).symm
    · cases key <;> rfl
  | some v =>
    have hv := hiv v rfl
    have e1 : memcpyTo e.oiv v 8 = v ++ e.oiv.drop 8 := by rw [memcpyTo, List.take_of_length_le (by omega)]
    have e2 : memcpyTo e.iv (memcpyTo e.oiv v 8) 8 = v ++ e.iv.drop 8 := by rw [e1, memcpyTo, List.take_left' hv]
    refine ⟨by cases key <;> rfl, by cases key <;> rfl, by cases key <;> rfl, ?_, ?_, by cases key <;> rfl, by cases key <;> rfl⟩
    · cases key <;> exact e1
    · cases key <;> exact e2

theorem seed_len (enc : Bool) (seed : Bytes) (hs : seed.length = 8) (draws : List Bytes) (hd : ∀ d ∈ draws, d.length = 8)
    (seed' : Bytes) (ds : List Bytes) (h : acpkmOmacSeed enc seed draws = some (seed', ds)) :
    seed'.length = 8 ∧ ∀ d ∈ ds, d.length = 8 := by
  cases enc with
  | false => cases h; exact ⟨hs, hd⟩
  | true =>
    cases draws with
    | nil => cases h
    | cons d ds' =>
      cases h
      exact ⟨by simp [hd d (by simp)], fun x hx => hd x (by simp [hx])⟩

theorem zero_seed_len (seed : Bytes) (hs : seed.length = 8) (draws : List Bytes) (hd : ∀ d ∈ draws, d.length = 8)
    (seed' : Bytes) (ds : List Bytes) (h : init_zero_kdf_seed seed draws = some (seed', ds)) :
    seed'.length = 8 ∧ ∀ d ∈ ds, d.length = 8 := by
  unfold init_zero_kdf_seed at h
  split at h
  · exact seed_len true seed hs draws hd _ _ h
  · cases h; exact ⟨hs, hd⟩

theorem magma_seed_unused (a : AoCtx CipherCtx) (hu : AoUnused .magma a) (key iv : Option Bytes)
    (hiv : ∀ v, iv = some v → v.length = 4) (enc : Bool) (draws : List Bytes) (hd : ∀ d ∈ draws, d.length = 8) :
    AoUnused .magma (magma_cipher_init_seed a key iv enc draws).1 ∧ ∀ d ∈ (magma_cipher_init_seed a key iv enc draws).2.2, d.length = 8 := by
  obtain ⟨u1, u2, u3, u4, u5, u6, u7, u8, u9⟩ := hu
  obtain ⟨f1, f2, f3, f4, f5, f6, f7, f8, f9, f10⟩ := magma_init_facts a.c key iv enc hiv u9
  have hl : (iv.getD (a.c.oiv.take 4)).length = 4 := by
    cases iv with
    | none => simp [u5]
    | some v => exact hiv v rfl
  have key' : ∀ seed : Bytes, seed.length = 8 → AoUnused .magma { a with c := magma_cipher_init a.c key iv enc 4 true, kdf_seed := seed } :=
    fun seed hs => ⟨hs, u2, f1.trans u3, f2 u4, by rw [f3]; simp [hl, u5], by rw [f4]; simp [hl, u6],
      by rw [f4, List.drop_left' hl]; exact u7, (congrArg List.length f5).trans u8, fun _ => f7⟩
  unfold magma_cipher_init_seed
  split
  · split
    · unfold gost_cipher_set_param gost_init
      exact ⟨⟨u1, u2, u3, rfl, u5, u6, u7, u8, fun _ => rfl⟩, hd⟩
    · next seed ds hz =>
      obtain ⟨z1, z2⟩ := zero_seed_len _ u1 _ hd _ _ hz
      exact ⟨key' seed z1, z2⟩
  · exact ⟨key' _ u1, hd⟩

theorem init_unused (X : Crypto) (rng : Nat → Fin 8 → W32) (n : OmacCipher) (a : AoCtx (AoState n)) (hu : AoUnused n a)
    (key iv : Option Bytes) (hiv : ∀ v, iv = some v → v.length = n.block / 2) (enc : Bool) (draws : List Bytes)
    (hd : ∀ d ∈ draws, d.length = 8) :
    AoUnused n (aoInit X rng n a key iv enc draws).1 ∧ ∀ d ∈ (aoInit X rng n a key iv enc draws).2.2, d.length = 8 := by
  cases n with
  | magma =>
    show AoUnused .magma (magma_cipher_init_ctr_acpkm_omac X rng a key iv enc draws).1 ∧
      ∀ d ∈ (magma_cipher_init_ctr_acpkm_omac X rng a key iv enc draws).2.2, d.length = 8
    have hu' := hu
    obtain ⟨u1, u2, u3, u4, u5, u6, u7, u8, u9⟩ := hu
    unfold magma_cipher_init_ctr_acpkm_omac
    cases key with
    | none => exact magma_seed_unused a hu' none iv hiv enc draws hd
    | some k =>
      simp only
      split
      · exact ⟨⟨u1, u2, u3, u4, u5, u6, u7, u8, u9⟩, hd⟩
      · next seed ds hs =>
        obtain ⟨z1, z2⟩ := seed_len _ _ u1 _ hd _ _ hs
        split
        · exact ⟨⟨z1, u2, u3, u4, u5, u6, u7, u8, u9⟩, z2⟩
        · next s ck _ =>
          exact magma_seed_unused { a with omac_ctx := some s, kdf_seed := seed } ⟨z1, u2, u3, u4, u5, u6, u7, u8, u9⟩ (some ck) iv
            hiv enc ds z2
  | kuznyechik =>
    show AoUnused .kuznyechik (gost_grasshopper_cipher_init_ctracpkm_omac X rng a key iv enc draws).1 ∧
      ∀ d ∈ (gost_grasshopper_cipher_init_ctracpkm_omac X rng a key iv enc draws).2.2, d.length = 8
    obtain ⟨u1, u2, u3, u4, u5, u6⟩ := hu
    have hl : (iv.getD (a.c.oiv.take 8)).length = 8 := by
      cases iv with
      | none => simp [u3]
      | some v => exact hiv v rfl
    have key' : ∀ (k : Option Bytes) (s : Option MacSign) (seed : Bytes), seed.length = 8 → AoUnused .kuznyechik
        (AoCtx.mk (gost_grasshopper_cipher_init { a.c with type := .ctracpkmomac, num := 0, section_size := 4096 } k iv enc 8)
          s seed a.tag) := by
      intro k s seed hs
      obtain ⟨f1, f2, f3, f4, f5, f6, f7⟩ :=
        kuz_init_facts { a.c with type := .ctracpkmomac, num := 0, section_size := 4096 } k iv enc hiv
      refine ⟨hs, u2, (congrArg List.length f4).trans ?_, (congrArg List.length f5).trans ?_, ?_, (congrArg List.length f6).trans u6⟩
      · simp [hl, u3]
      · simp [hl, u4]
      · show List.drop 8 (gost_grasshopper_cipher_init { a.c with type := .ctracpkmomac, num := 0, section_size := 4096 } k iv enc 8).iv = _
        rw [f5, List.drop_left' hl]; exact u5
    unfold gost_grasshopper_cipher_init_ctracpkm_omac
    cases key with
    | none => exact ⟨key' none _ _ u1, hd⟩
    | some k =>
      simp only
      split
      · exact ⟨⟨u1, u2, u3, u4, u5, u6⟩, hd⟩
      · next seed ds hs =>
        obtain ⟨z1, z2⟩ := seed_len _ _ u1 _ hd _ _ hs
        split
        · exact ⟨⟨z1, u2, u3, u4, u5, u6⟩, z2⟩
        · next s ck _ => exact ⟨key' (some ck) _ _ z1, z2⟩

theorem getParams_unused (cd : Asn1Codec) (n : OmacCipher) (a : AoCtx (AoState n)) (hu : AoUnused n a) (p : AsnType) :
    AoUnused n (aoGetParams cd n a p).1 := by
  have hr : ∀ us off seed, seed.length = 8 → off + 8 = us → off ≤ 8 →
      (gost2015_get_asn1_params cd p us off seed).2.2.length = 8 ∧
      (gost2015_get_asn1_params cd p us off seed).2.1.length = 16 ∧
      (gost2015_get_asn1_params cd p us off seed).2.1.drop off = zeros (16 - off) := by
    intro us off seed hs hus hoff
    unfold gost2015_get_asn1_params
    have hz : ∀ off, (zeros 16).drop off = zeros (16 - off) := fun off => by simp only [zeros, List.drop_replicate]
    dsimp only
    split
    · exact ⟨hs, rfl, hz off⟩
    · split
      · exact ⟨hs, rfl, hz off⟩
      · next ukm _ =>
        split
        · exact ⟨hs, rfl, hz off⟩
        · next hu =>
          have hu : ukm.length = us := by simpa using hu
          have hl : (ukm.take off).length = off := by simp; omega
          refine ⟨by simp [memcpy, hs]; omega, ?_, ?_⟩
          · show (memcpy (zeros 16) ukm off).length = 16
            rw [memcpy, List.length_append, hl]; simp [zeros]; omega
          · show (memcpy (zeros 16) ukm off).drop off = _
            rw [memcpy, List.drop_left' hl]; exact hz off
  cases n with
  | magma =>
    obtain ⟨u1, u2, u3, u4, u5, u6, u7, u8, u9⟩ := hu
    obtain ⟨r1, r2, r3⟩ := hr 12 4 a.kdf_seed u1 rfl (by decide)
    show AoUnused .magma { a with c := (magma_get_asn1_parameters cd a.c a.kdf_seed p).2.1, kdf_seed := (magma_get_asn1_parameters cd a.c a.kdf_seed p).2.2 }
    unfold magma_get_asn1_parameters
    dsimp only
    split
    · exact ⟨r1, u2, u3, u4, u5, u6, u7, u8, u9⟩
    · generalize (gost2015_get_asn1_params cd p 12 4 a.kdf_seed).2.1 = b at *
      refine ⟨r1, u2, u3, u4, ?_, ?_, ?_, u8, u9⟩
      · show (memcpy a.c.oiv b 8).length = 8
        simp [memcpy, r2, u5]
      · show (memcpy a.c.iv b 8).length = 8
        simp [memcpy, r2, u6]
      · show (memcpy a.c.iv b 8).drop 4 = zeros 4
        have hd : a.c.iv.drop 8 = [] := List.drop_eq_nil_of_le (by omega)
        rw [memcpy, hd, List.append_nil, List.drop_take, r3]
        rfl
  | kuznyechik =>
    obtain ⟨u1, u2, u3, u4, u5, u6⟩ := hu
    obtain ⟨r1, r2, r3⟩ := hr 16 8 a.kdf_seed u1 rfl (by decide)
    show AoUnused .kuznyechik { a with c := (gost_grasshopper_get_asn1_parameters cd a.c a.kdf_seed p).2.1, kdf_seed := (gost_grasshopper_get_asn1_parameters cd a.c a.kdf_seed p).2.2 }
    unfold gost_grasshopper_get_asn1_parameters
    dsimp only
    split
    · split
      · exact ⟨r1, u2, u3, u4, u5, u6⟩
      · generalize (gost2015_get_asn1_params cd p 16 8 a.kdf_seed).2.1 = b at *
        refine ⟨r1, u2, ?_, ?_, ?_, u6⟩
        · show (memcpyTo a.c.oiv b 16).length = 16
          simp [memcpyTo, r2, u3]
        · show (memcpyTo a.c.iv b 16).length = 16
          simp [memcpyTo, r2, u4]
        · show (memcpyTo a.c.iv b 16).drop 8 = zeros 8
          have hd : a.c.iv.drop 16 = [] := List.drop_eq_nil_of_le (by omega)
          rw [memcpyTo, hd, List.append_nil, List.drop_take, r3]
          rfl
    · exact ⟨u1, u2, u3, u4, u5, u6⟩

theorem fresh_unused (rng : Nat → Fin 8 → W32) (n : OmacCipher) : AoUnused n (aoFresh rng n) := by
  cases n
  · exact ⟨rfl, rfl, rfl, rfl, rfl, rfl, rfl, rfl, fun h => by cases h⟩
  · exact ⟨rfl, rfl, rfl, rfl, rfl, rfl⟩

theorem prep_unused (cd : Asn1Codec) (X : Crypto) (rng : Nat → Fin 8 → W32) (n : OmacCipher) (ps : List AoPrep)
    (hps : ∀ p ∈ ps, p.Valid n) (s : AoCtx (AoState n) × List Bytes) (hu : AoUnused n s.1) (hd : ∀ d ∈ s.2, d.length = 8) :
    AoUnused n (aoPrep cd X rng n s ps).1 ∧ ∀ d ∈ (aoPrep cd X rng n s ps).2, d.length = 8 := by
  induction ps generalizing s with
  | nil => exact ⟨hu, hd⟩
  | cons p ps ih =>
    cases p with
    | init key iv enc =>
      obtain ⟨h1, h2⟩ := init_unused X rng n s.1 hu key iv (hps (.init key iv enc) (by simp)) enc s.2 hd
      exact ih (fun p hp => hps p (by simp [hp])) _ h1 h2
    | params p => exact ih (fun p hp => hps p (by simp [hp])) _ (getParams_unused cd n s.1 hu p) hd

/-! ## The keyed context -/

/-- A context just initialised with keys `ke` and `km`. -/
def AoStart : (n : OmacCipher) → (sec : Nat) → (ke km iv : Bytes) → (enc : Bool) → AoCtx (AoState n) → Prop
  | .magma, sec, ke, km, iv, enc, a => a.omac_ctx = some (omacSign .magma km []) ∧ a.tag.length = 8 ∧ a.c.encrypting = enc ∧
      a.c.cctx.box = magmaBox ∧ a.c.key_meshing = sec ∧ a.c.buf.length = 8 ∧ a.c.num = 0 ∧ a.c.count = 0 ∧
      magma_get_key a.c.cctx = ke ∧ a.c.iv = iv ++ zeros 4 ∧ a.c.oiv.take 4 = iv ∧ a.c.oiv.length = 8 ∧ iv.length = 4
  | .kuznyechik, sec, ke, km, iv, enc, a => a.omac_ctx = some (omacSign .kuznyechik km []) ∧ a.tag.length = 16 ∧
      a.c.encrypting = enc ∧ KFacts a.c ∧ a.c.section_size = sec ∧ a.c.partial_buffer.length = 16 ∧ a.c.num = 0 ∧
      a.c.type = .ctracpkmomac ∧ a.c.key = ke ∧ a.c.iv = iv ++ zeros 8 ∧ a.c.oiv.take 8 = iv ∧ a.c.oiv.length = 16 ∧ iv.length = 8

theorem all_zero (l : Bytes) (n : Nat) (h : l.length = n) : l.all (· == 0) = true ↔ l = zeros n := by
  rw [zeros, List.eq_replicate_iff]
  simp [h, List.all_eq_true]

theorem magma_seed_start (a : AoCtx CipherCtx) (hu : AoUnused .magma a) (ke km : Bytes) (hke : ke.length = 32) (iv : Option Bytes)
    (hiv : ∀ v, iv = some v → v.length = 4) (enc : Bool) (seed : Bytes) :
    AoStart .magma 1024 ke km (iv.getD (a.c.oiv.take 4)) enc
      (AoCtx.mk (magma_cipher_init a.c (some ke) iv enc 4 true) (some (omacSign .magma km [])) seed a.tag) := by
  obtain ⟨u1, u2, u3, u4, u5, u6, u7, u8, u9⟩ := hu
  obtain ⟨f1, f2, f3, f4, f5, f6, f7, f8, f9, f10⟩ := magma_init_facts a.c (some ke) iv enc hiv u9
  have hl : (iv.getD (a.c.oiv.take 4)).length = 4 := by
    cases iv with
    | none => simp [u5]
    | some v => exact hiv v rfl
  refine ⟨rfl, u2, f9, f7, f8, (congrArg List.length f5).trans u8, f1.trans u3, f2 u4, f10 _ rfl hke, ?_, ?_, ?_, hl⟩
  · exact f4.trans (by rw [u7])
  · exact (congrArg (List.take 4) f3).trans (List.take_left' hl)
  · exact (congrArg List.length f3).trans (by simp [hl, u5])

/-- Initialisation with a key: the seed used for the keys is the one drawn (or, for decryption, the one stored). -/
theorem init_start (X : Crypto) (rng : Nat → Fin 8 → W32) (n : OmacCipher) (a : AoCtx (AoState n)) (hu : AoUnused n a)
    (key : Bytes) (hk : key.length = 32) (iv : Option Bytes) (hiv : ∀ v, iv = some v → v.length = n.block / 2) (enc : Bool)
    (draws : List Bytes) (seed : Bytes) (ds : List Bytes) (hsd : acpkmOmacSeed enc a.kdf_seed draws = some (seed, ds))
    (hsl : seed.length = 8) (hz : enc = true → aoApp n a = false → seed ≠ zeros 8) :
    ∃ a', aoInit X rng n a (some key) iv enc draws = (a', 1, ds) ∧ a'.kdf_seed = seed ∧
      AoStart n (aoSection n) (acpkmOmacKeyPair X.hmac key seed).1 (acpkmOmacKeyPair X.hmac key seed).2
        (iv.getD (aoIv n a)) enc a' := by
  have hkeys := acpkmOmacKeys_eq X rng n key seed hk hsl
  obtain ⟨k1, k2, _⟩ := keyPair_eq X key seed
  generalize (acpkmOmacKeyPair X.hmac key seed).1 = ke at *
  generalize (acpkmOmacKeyPair X.hmac key seed).2 = km at *
  cases n with
  | magma =>
    refine ⟨AoCtx.mk (magma_cipher_init a.c (some ke) iv enc 4 true) (some (omacSign .magma km [])) seed a.tag, ?_, rfl,
      magma_seed_start a hu ke km k1 iv hiv enc seed⟩
    show magma_cipher_init_ctr_acpkm_omac X rng a (some key) iv enc draws = _
    unfold magma_cipher_init_ctr_acpkm_omac
    simp only [hsd, hkeys]
    unfold magma_cipher_init_seed
    by_cases hc : (!a.c.appData && enc) = true
    · rw [if_pos hc]
      simp only [Bool.and_eq_true, Bool.not_eq_true'] at hc
      have hne := hz hc.2 hc.1
      have h8 : seed.take 8 = seed := List.take_of_length_le (by omega)
      have : init_zero_kdf_seed seed ds = some (seed, ds) := by
        unfold init_zero_kdf_seed
        rw [h8, if_neg (fun h => hne ((all_zero seed 8 hsl).1 h))]
      simp only [this]
    · rw [if_neg hc]
  | kuznyechik =>
    obtain ⟨u1, u2, u3, u4, u5, u6⟩ := hu
    obtain ⟨f1, f2, f3, f4, f5, f6, f7⟩ :=
      kuz_init_facts { a.c with type := .ctracpkmomac, num := 0, section_size := 4096 } (some ke) iv enc hiv
    have hl : (iv.getD (a.c.oiv.take 8)).length = 8 := by
      cases iv with
      | none => simp [u3]
      | some v => exact hiv v rfl
    refine ⟨AoCtx.mk (gost_grasshopper_cipher_init { a.c with type := .ctracpkmomac, num := 0, section_size := 4096 } (some ke) iv enc 8)
      (some (omacSign .kuznyechik km [])) seed a.tag, ?_, rfl, ?_⟩
    · show gost_grasshopper_cipher_init_ctracpkm_omac X rng a (some key) iv enc draws = _
      unfold gost_grasshopper_cipher_init_ctracpkm_omac
      simp only [hsd, hkeys]
    · refine ⟨rfl, u2, f7, ?_, f2, (congrArg List.length f6).trans u6, f1, f3, ?_, ?_, ?_, ?_, hl⟩
      · refine ⟨by cases iv <;> rfl, by cases iv <;> rfl, by cases iv <;> exact copyN_length _ _, ?_⟩
        exact (congrArg List.length f5).trans (by simp [hl, u4])
      · cases iv <;> exact copyN_self k1
      · exact f5.trans (by rw [u5]; rfl)
      · exact (congrArg (List.take 8) f4).trans (List.take_left' hl)
      · exact (congrArg List.length f4).trans (by simp [hl, u3])

theorem start_ready (n : OmacCipher) (sec : Nat) (h0 : n.block ∣ sec) (hb : sec < 2 ^ 31) (ke km iv : Bytes) (enc : Bool)
    (a : AoCtx (AoState n)) (h : AoStart n sec ke km iv enc a) : AoReady n sec ke km iv enc a := by
  cases n with
  | magma =>
    obtain ⟨h1, h2, h3, h4, h5, h6, h7, h8, h9, h10, h11, h12, h13⟩ := h
    refine ⟨h1, h3, fun chunks => ?_, h2⟩
    have hr : (sec + 7) / 8 * 8 = sec := by obtain ⟨c, hc⟩ := h0; simp only [OmacCipher.block] at hc; omega
    have := mctr_history magmaBox sec (by omega) a.c ⟨h4, h5, h6, by rw [h7]; decide, fun _ => by rw [h7]; exact Nat.zero_le _⟩ h7
      (by rw [h10]; simp [h13, zeros]) chunks
    rw [h9, h10, hr] at this
    exact this
  | kuznyechik =>
    obtain ⟨h1, h2, h3, h4, h5, h6, h7, h8, h9, h10, h11, h12, h13⟩ := h
    refine ⟨h1, h3, fun chunks => ?_, h2⟩
    have hr : (sec + 15) / 16 * 16 = sec := by obtain ⟨c, hc⟩ := h0; simp only [OmacCipher.block] at hc; omega
    have := kactr_history sec (by omega) a.c ⟨h4, h5, h6, by rw [h7]; decide, fun _ => by rw [h7]; exact Nat.zero_le _⟩ h7
      (by rw [h10]; simp [h13, zeros]) chunks
    rw [h9, h10, hr] at this
    exact this

/-- The sections a caller may set: for both ciphers a positive multiple of the block that fits an `int`. -/
def AoSectionOk (n : OmacCipher) (sec : Option Nat) : Prop := ∀ s, sec = some s → 0 < s ∧ n.block ∣ s ∧ s < 2 ^ 31

theorem section_start (n : OmacCipher) (sec0 : Nat) (ke km iv : Bytes) (enc : Bool) (a : AoCtx (AoState n))
    (h : AoStart n sec0 ke km iv enc a) (sec : Option Nat) (hs : AoSectionOk n sec) :
    ∃ a', aoSetSection n a sec = some a' ∧ a'.kdf_seed = a.kdf_seed ∧ AoStart n (sec.getD sec0) ke km iv enc a' := by
  cases sec with
  | none => exact ⟨a, rfl, rfl, h⟩
  | some s =>
    obtain ⟨s1, s2, s3⟩ := hs s rfl
    cases n with
    | magma =>
      obtain ⟨h1, h2, h3, h4, h5, h6, h7, h8, h9, h10, h11, h12, h13⟩ := h
      have e : magma_cipher_ctl_key_mesh a.c s = ({ a.c with key_meshing := s }, 1) := by
        unfold magma_cipher_ctl_key_mesh; rw [if_neg (by simp [h8])]
      refine ⟨{ a with c := { a.c with key_meshing := s } }, ?_, rfl, h1, h2, h3, h4, rfl, h6, h7, h8, h9, h10, h11, h12, h13⟩
      simp [aoSetSection, aoMesh, e]
    | kuznyechik =>
      obtain ⟨h1, h2, h3, h4, h5, h6, h7, h8, h9, h10, h11, h12, h13⟩ := h
      have e : gost_grasshopper_cipher_ctl_key_mesh a.c s = ({ a.c with section_size := s }, 1) := by
        unfold gost_grasshopper_cipher_ctl_key_mesh
        have hm : ((s : Int) % 2 ^ 32).toNat = s := by omega
        have hd : (s : Int).tmod 16 = 0 := by
          simp only [OmacCipher.block] at s2
          rw [Int.tmod_eq_emod_of_nonneg (by omega)]; omega
        rw [if_neg (by simp [h8, hd]; omega), hm]
      refine ⟨{ a with c := { a.c with section_size := s } }, ?_, rfl, h1, h2, h3, h4, rfl, h6, h7, h8, h9, h10, h11, h12, h13⟩
      simp [aoSetSection, aoMesh, e]

theorem section_ok (n : OmacCipher) (sec : Option Nat) (hs : AoSectionOk n sec) :
    n.block ∣ sec.getD (aoSection n) ∧ sec.getD (aoSection n) < 2 ^ 31 := by
  cases sec with
  | none => cases n <;> exact ⟨by decide, by decide⟩
  | some s => exact ⟨(hs s rfl).2.1, (hs s rfl).2.2⟩

/-! ## Complete messages -/

/-- Encryption from a ready context. -/
theorem ready_seal (X : Crypto) (n : OmacCipher) (sec : Nat) (ke km iv : Bytes) (a : AoCtx (AoState n))
    (h : AoReady n sec ke km iv true a) (chunks : List Bytes) :
    ∃ a1 c a2, aoFeed n a chunks = some (a1, c) ∧ aoFinal X n a1 = .ret a2 [] 0 ∧
      c = acpkmCrypt engineE n sec ke iv chunks.flatten ∧
      c ++ process_unprotected_enc n a2 =
        acpkmCrypt engineE n sec ke iv (chunks.flatten ++ X.cmac n km chunks.flatten) := by
  obtain ⟨f1, f2⟩ := aoFeed_eq n chunks a km [] h.omac
  rw [h.enc] at f1 f2
  have hn := ready_next n sec ke km iv true a h chunks (X.cmac n km chunks.flatten)
  have ht := h.tag
  have hs := h.stream chunks
  generalize hc : (feed (aoDo n) a.c chunks).1 = c1 at *
  have hfin := aoFinal_eq X n (AoCtx.mk c1 (some (omacSign n km ([] ++ if true = true then chunks.flatten else
    (feed (aoDo n) a.c chunks).2))) a.kdf_seed a.tag) km chunks.flatten (by simp)
  rw [if_pos f2] at hfin
  refine ⟨_, _, _, f1, hfin, hs, ?_⟩
  · have hl : (acpkmCrypt engineE n sec ke iv (chunks.flatten ++ X.cmac n km chunks.flatten)).length =
        chunks.flatten.length + n.block := by rw [acpkmCrypt_length, List.length_append, X.cmac_length]
    show _ ++ List.take (aoMacSize n) (memcpy a.tag (aoDo n c1 (X.cmac n km chunks.flatten)).2 n.block) = _
    rw [hs, aoMacSize_eq, hn, ← acpkmCrypt_prefix n sec ke iv chunks.flatten (X.cmac n km chunks.flatten)]
    have e : List.take n.block (memcpy a.tag (List.drop chunks.flatten.length
        (acpkmCrypt engineE n sec ke iv (chunks.flatten ++ X.cmac n km chunks.flatten))) n.block) =
        List.drop chunks.flatten.length (acpkmCrypt engineE n sec ke iv (chunks.flatten ++ X.cmac n km chunks.flatten)) := by
      have hd : (List.drop chunks.flatten.length
        (acpkmCrypt engineE n sec ke iv (chunks.flatten ++ X.cmac n km chunks.flatten))).length = n.block := by
          rw [List.length_drop, hl]; omega
      rw [memcpy_short _ _ _ hd, List.take_left' hd]
    rw [e, List.take_append_drop]

theorem feed_append {S : Type} (upd : S → Bytes → S × Bytes) (s : S) (c1 c2 : List Bytes) :
    feed upd s (c1 ++ c2) = ((feed upd (feed upd s c1).1 c2).1, (feed upd s c1).2 ++ (feed upd (feed upd s c1).1 c2).2) := by
  induction c1 generalizing s with
  | nil => simp [feed]
  | cons c cs ih => simp only [List.cons_append, feed, ih, List.append_assoc]

/-- Decryption from a ready context: the tag is given at any time before the end. -/
theorem ready_open (X : Crypto) (n : OmacCipher) (sec : Nat) (ke km iv : Bytes) (a : AoCtx (AoState n))
    (h : AoReady n sec ke km iv false a) (cs1 cs2 : List Bytes) (t : Bytes) (ht : t.length = n.block) :
    ∃ a1 o1 a2 a3 o2 a4, aoFeed n a cs1 = some (a1, o1) ∧ process_unprotected_dec n a1 (some t) = (a2, 1) ∧
      aoFeed n a2 cs2 = some (a3, o2) ∧ o1 ++ o2 = acpkmCrypt engineE n sec ke iv (cs1 ++ cs2).flatten ∧
      aoFinal X n a3 = .ret a4 [] (if acpkmCrypt engineE n sec ke iv ((cs1 ++ cs2).flatten ++ t) =
        (o1 ++ o2) ++ X.cmac n km (o1 ++ o2) then 0 else -1) := by
  obtain ⟨f1, f2⟩ := aoFeed_eq n cs1 a km [] h.omac
  rw [h.enc] at f1 f2
  simp only [Bool.false_eq_true, if_false, List.nil_append] at f1
  have hn := ready_next n sec ke km iv false a h (cs1 ++ cs2) t
  have hs := h.stream (cs1 ++ cs2)
  rw [feed_append] at hn hs
  generalize ho1 : (feed (aoDo n) a.c cs1).2 = o1 at *
  generalize hc1 : (feed (aoDo n) a.c cs1).1 = c1 at *
  obtain ⟨g1, g2⟩ := aoFeed_eq n cs2 (AoCtx.mk c1 (some (omacSign n km o1)) a.kdf_seed (memcpy a.tag t t.length)) km o1 rfl
  dsimp only at g1 g2 hs hn
  rw [f2] at g1 g2
  simp only [Bool.false_eq_true, if_false] at g1
  generalize ho2 : (feed (aoDo n) c1 cs2).2 = o2 at *
  generalize hc2 : (feed (aoDo n) c1 cs2).1 = c2 at *
  have hl : (acpkmCrypt engineE n sec ke iv ((cs1 ++ cs2).flatten ++ t)).take (cs1 ++ cs2).flatten.length = o1 ++ o2 := by
    rw [acpkmCrypt_prefix, ← hs]
  have htag : (memcpy a.tag t t.length).take n.block = t := by rw [memcpy_short _ _ _ rfl, List.take_left' ht]
  have hiff : acpkmCrypt engineE n sec ke iv ((cs1 ++ cs2).flatten ++ t) = (o1 ++ o2) ++ X.cmac n km (o1 ++ o2) ↔
      (aoDo n c2 t).2 = X.cmac n km (o1 ++ o2) := by
    rw [hn]
    conv_lhs => lhs; rw [← List.take_append_drop (cs1 ++ cs2).flatten.length
      (acpkmCrypt engineE n sec ke iv ((cs1 ++ cs2).flatten ++ t)), hl]
    exact List.append_right_inj _
  refine ⟨_, _, _, _, _, AoCtx.mk (aoDo n c2 t).1 (some (omacSign n km (o1 ++ o2))) a.kdf_seed (memcpy a.tag t t.length), f1, ?_,
    g1, hs, ?_⟩
  · show process_unprotected_dec n _ (some t) = _
    unfold process_unprotected_dec
    rw [aoMacSize_eq]
    simp only [ht, ne_eq, not_true_eq_false, if_false]
  · rw [aoFinal_eq X n _ km (o1 ++ o2) rfl]
    dsimp only
    rw [if_neg (by rw [g2]; decide), htag]
    by_cases hc : (aoDo n c2 t).2 = X.cmac n km (o1 ++ o2)
    · rw [if_neg (by simp [hc]), if_pos (hiff.2 hc)]
    · rw [if_pos hc, if_neg (fun h => hc (hiff.1 h))]

/-! ## C62 -/

/-- The context after any valid preparation of a fresh one. -/
structure AoPrepared (cd : Asn1Codec) (X : Crypto) (rng : Nat → Fin 8 → W32) (n : OmacCipher) (a : AoCtx (AoState n))
    (draws : List Bytes) : Prop where
  reached : ∃ (ps : List AoPrep) (draws0 : List Bytes), (∀ p ∈ ps, p.Valid n) ∧ (∀ d ∈ draws0, d.length = 8) ∧
    aoPrep cd X rng n (aoFresh rng n, draws0) ps = (a, draws)

theorem AoPrepared.unused {cd : Asn1Codec} {X : Crypto} {rng : Nat → Fin 8 → W32} {n : OmacCipher} {a : AoCtx (AoState n)}
    {draws : List Bytes} (h : AoPrepared cd X rng n a draws) : AoUnused n a ∧ ∀ d ∈ draws, d.length = 8 := by
  obtain ⟨ps, draws0, h1, h2, h3⟩ := h.reached
  have := prep_unused cd X rng n ps h1 (aoFresh rng n, draws0) (fresh_unused rng n) h2
  rw [h3] at this
  exact this

theorem unused_seed (n : OmacCipher) (a : AoCtx (AoState n)) (h : AoUnused n a) : a.kdf_seed.length = 8 := by
  cases n <;> exact h.1

/-- **C62** Encryption on any prepared context, initialised with a key (and perhaps an IV and a section size), in any chunks: the
ciphertext and the tag put into the attribute are the sealed message for the seed drawn, which the context keeps for the parameters.
(For Magma the theorem leaves out a drawn seed of eight zero bytes on a context without application data: `C62_magma_zero_seed`.) -/
theorem C62_encrypt (cd : Asn1Codec) (X : Crypto) (rng : Nat → Fin 8 → W32) (n : OmacCipher) (a : AoCtx (AoState n)) (d : Bytes)
    (ds : List Bytes) (hp : AoPrepared cd X rng n a (d :: ds)) (hz : aoApp n a = true ∨ d ≠ zeros 8) (key : Bytes) (hk : key.length = 32)
    (iv : Option Bytes) (hiv : ∀ v, iv = some v → v.length = n.block / 2) (sec : Option Nat) (hsec : AoSectionOk n sec)
    (chunks : List Bytes) :
    ∃ a1 a2 a3 c a4, aoInit X rng n a (some key) iv true (d :: ds) = (a1, 1, ds) ∧ a1.kdf_seed = d ∧
      aoSetSection n a1 sec = some a2 ∧ aoFeed n a2 chunks = some (a3, c) ∧ aoFinal X n a3 = .ret a4 [] 0 ∧
      c.length = chunks.flatten.length ∧
      c ++ process_unprotected_enc n a4 = acpkmOmacSeal engineE X.cmac X.hmac n (sec.getD (aoSection n)) key d
        (iv.getD (aoIv n a)) chunks.flatten := by
  obtain ⟨hu, hd⟩ := hp.unused
  have hd8 : d.length = 8 := hd d (by simp)
  have hsd : acpkmOmacSeed true a.kdf_seed (d :: ds) = some (d, ds) := by
    show some (d.take 8, ds) = _
    rw [List.take_of_length_le (by omega)]
  obtain ⟨a1, i1, i2, i3⟩ := init_start X rng n a hu key hk iv hiv true (d :: ds) d ds hsd hd8
    (fun _ ha => hz.resolve_left (by simp [ha]))
  obtain ⟨a2, s1, _, s3⟩ := section_start n _ _ _ _ _ a1 i3 sec hsec
  obtain ⟨o1, o2⟩ := section_ok n sec hsec
  obtain ⟨a3, c, a4, r1, r2, r3, r4⟩ := ready_seal X n _ _ _ _ a2 (start_ready n _ o1 o2 _ _ _ _ a2 s3) chunks
  exact ⟨a1, a2, a3, c, a4, i1, i2, s1, r1, r2, by rw [r3, acpkmCrypt_length], r4⟩

/-- **C27** Decryption on any prepared context, initialised with a key: the output is the CTR-ACPKM decryption, and with a tag attribute
`t` of the right length given at any time the end of decryption reports success exactly if input and tag are the sealed output for the
key, the stored seed and the IV. -/
theorem C27_acpkm_omac_tag_check (cd : Asn1Codec) (X : Crypto) (rng : Nat → Fin 8 → W32) (n : OmacCipher) (a : AoCtx (AoState n))
    (draws : List Bytes) (hp : AoPrepared cd X rng n a draws) (key : Bytes) (hk : key.length = 32)
    (iv : Option Bytes) (hiv : ∀ v, iv = some v → v.length = n.block / 2) (sec : Option Nat) (hsec : AoSectionOk n sec)
    (cs1 cs2 : List Bytes) (t : Bytes) (ht : t.length = n.block) :
    ∃ a1 a2 a3 o1 a4 a5 o2 a6, aoInit X rng n a (some key) iv false draws = (a1, 1, draws) ∧ aoSetSection n a1 sec = some a2 ∧
      aoFeed n a2 cs1 = some (a3, o1) ∧ process_unprotected_dec n a3 (some t) = (a4, 1) ∧ aoFeed n a4 cs2 = some (a5, o2) ∧
      o1 ++ o2 = acpkmCrypt engineE n (sec.getD (aoSection n)) (acpkmOmacKeyPair X.hmac key a.kdf_seed).1 (iv.getD (aoIv n a))
        (cs1 ++ cs2).flatten ∧
      aoFinal X n a5 = .ret a6 [] (if (cs1 ++ cs2).flatten ++ t =
        acpkmOmacSeal engineE X.cmac X.hmac n (sec.getD (aoSection n)) key a.kdf_seed (iv.getD (aoIv n a)) (o1 ++ o2) then 0 else -1) := by
  obtain ⟨hu, hd⟩ := hp.unused
  obtain ⟨a1, i1, i2, i3⟩ := init_start X rng n a hu key hk iv hiv false draws a.kdf_seed draws rfl (unused_seed n a hu) (fun h => by cases h)
  obtain ⟨a2, s1, _, s3⟩ := section_start n _ _ _ _ _ a1 i3 sec hsec
  obtain ⟨k1, k2⟩ := section_ok n sec hsec
  obtain ⟨a3, o1, a4, a5, o2, a6, r1, r2, r3, r4, r5⟩ := ready_open X n _ _ _ _ a2 (start_ready n _ k1 k2 _ _ _ _ a2 s3) cs1 cs2 t ht
  refine ⟨a1, a2, a3, o1, a4, a5, o2, a6, i1, s1, r1, r2, r3, r4, ?_⟩
  rw [r5]
  exact congrArg (AoRes.ret _ []) (if_congr (crypt_swap _ _ _ _ _ _) rfl rfl)

/-- **C27** A missing tag attribute, or one of another length, is refused and changes nothing. -/
theorem C27_acpkm_omac_tag_attribute (n : OmacCipher) (a : AoCtx (AoState n)) (attr : Option Bytes) :
    (process_unprotected_dec n a attr).2 = 1 ∧ (∃ t, attr = some t ∧ t.length = n.block) ∨
      process_unprotected_dec n a attr = (a, -1) ∧ ¬ ∃ t, attr = some t ∧ t.length = n.block := by
  cases attr with
  | none => exact Or.inr ⟨rfl, by rintro ⟨t, h, _⟩; cases h⟩
  | some t =>
    by_cases h : t.length = n.block
    · left
      refine ⟨?_, t, rfl, h⟩
      unfold process_unprotected_dec
      rw [aoMacSize_eq]
      simp [h]
    · right
      refine ⟨?_, by rintro ⟨t', h1, h2⟩; cases h1; exact h h2⟩
      unfold process_unprotected_dec
      rw [aoMacSize_eq]
      simp [h]

/-- **C62** Decryption of what encryption made, with the same key, IV and section size on a context that stores the seed, in any chunks:
the message comes back and the tag is accepted. -/
theorem C62_roundtrip (cd : Asn1Codec) (X : Crypto) (rng rng' : Nat → Fin 8 → W32) (n : OmacCipher) (a : AoCtx (AoState n)) (d : Bytes)
    (ds : List Bytes) (hp : AoPrepared cd X rng n a (d :: ds)) (hz : aoApp n a = true ∨ d ≠ zeros 8) (key : Bytes) (hk : key.length = 32)
    (iv : Option Bytes) (hiv : ∀ v, iv = some v → v.length = n.block / 2) (sec : Option Nat) (hsec : AoSectionOk n sec)
    (chunks : List Bytes) (b : AoCtx (AoState n)) (draws' : List Bytes) (hp' : AoPrepared cd X rng' n b draws') (hb : b.kdf_seed = d)
    (iv' : Option Bytes) (hiv' : ∀ v, iv' = some v → v.length = n.block / 2) (hsame : iv'.getD (aoIv n b) = iv.getD (aoIv n a)) :
    ∃ a1 a2 a3 c a4, aoInit X rng n a (some key) iv true (d :: ds) = (a1, 1, ds) ∧
      aoSetSection n a1 sec = some a2 ∧ aoFeed n a2 chunks = some (a3, c) ∧ aoFinal X n a3 = .ret a4 [] 0 ∧
      ∀ chunks', chunks'.flatten = c → ∃ b1 b2 b3 b4 o b5, aoInit X rng' n b (some key) iv' false draws' = (b1, 1, draws') ∧
        aoSetSection n b1 sec = some b2 ∧ process_unprotected_dec n b2 (some (process_unprotected_enc n a4)) = (b3, 1) ∧
        aoFeed n b3 chunks' = some (b4, o) ∧ o = chunks.flatten ∧ aoFinal X n b4 = .ret b5 [] 0 := by
  obtain ⟨a1, a2, a3, c, a4, h1, _, h2, h3, h4, h5, h6⟩ := C62_encrypt cd X rng n a d ds hp hz key hk iv hiv sec hsec chunks
  refine ⟨a1, a2, a3, c, a4, h1, h2, h3, h4, fun chunks' hc => ?_⟩
  have hl : (acpkmOmacSeal engineE X.cmac X.hmac n (sec.getD (aoSection n)) key d (iv.getD (aoIv n a)) chunks.flatten).length =
      chunks.flatten.length + n.block := by
    unfold acpkmOmacSeal; rw [acpkmCrypt_length, List.length_append, X.cmac_length]
  have ht : (process_unprotected_enc n a4).length = n.block := by
    have := congrArg List.length h6
    rw [List.length_append, hl, h5] at this
    omega
  obtain ⟨b1, b2, b3, o1, b4, b5, o2, b6, g1, g2, g3, g4, g5, g6, g7⟩ :=
    C27_acpkm_omac_tag_check cd X rng' n b draws' hp' key hk iv' hiv' sec hsec [] chunks' _ ht
  cases g3
  rw [List.nil_append, List.nil_append] at g6
  rw [List.nil_append, List.nil_append, hsame, hb, hc, h6] at g7
  have ho : o2 = chunks.flatten := by
    rw [g6, hc, hb, hsame]
    have h7 := congrArg (List.take chunks.flatten.length) h6
    rw [List.take_left' h5, acpkmOmacSeal, acpkmCrypt_prefix] at h7
    rw [h7, acpkmCrypt_twice]
  rw [ho, if_pos rfl] at g7
  exact ⟨b1, b2, b4, b5, o2, b6, g1, g2, g4, g5, ho, g7⟩

/-! ### The flow of CMS -/

/-- The section size of a sender that stored its parameters. -/
def aoSenderSection : OmacCipher → Nat
  | .magma => 8192
  | .kuznyechik => 262144

/-- The cipher type is set: a Kuznyechik context was initialised. -/
def AoTyped : (n : OmacCipher) → AoCtx (AoState n) → Prop
  | .magma, _ => True
  | .kuznyechik, a => a.c.type = .ctracpkmomac

theorem setParams_start (cd : Asn1Codec) (hcd : cd.Sound) (n : OmacCipher) (sec0 : Nat) (ke km iv : Bytes) (enc : Bool)
    (a : AoCtx (AoState n)) (h : AoStart n sec0 ke km iv enc a) (hs : a.kdf_seed.length = 8) :
    ∃ a' p, aoSetParams cd n a = (a', some p, 1) ∧
      AoStart n (aoSenderSection n) ke km iv enc a' ∧
      ∀ b : AoCtx (AoState n), AoUnused n b → AoTyped n b →
        (aoGetParams cd n b p).2 = 1 ∧ (aoGetParams cd n b p).1.kdf_seed = a.kdf_seed ∧ aoIv n (aoGetParams cd n b p).1 = iv := by
  cases n with
  | magma =>
    obtain ⟨h1, h2, h3, h4, h5, h6, h7, h8, h9, h10, h11, h12, h13⟩ := h
    obtain ⟨p, p1, _⟩ := C48_magma cd hcd a.c a.c h12 ⟨by rw [h10]; simp [h13, zeros], h12⟩ a.kdf_seed a.kdf_seed hs hs
    refine ⟨{ a with c := { a.c with key_meshing := 8192 } }, p, ?_,
      ⟨h1, h2, h3, h4, rfl, h6, h7, h8, h9, h10, h11, h12, h13⟩, ?_⟩
    · show (_, some _, _) = _
      rw [p1]
    · intro b ⟨u1, u2, u3, u4, u5, u6, u7, u8, u9⟩ _
      obtain ⟨p', q1, q2⟩ := C48_magma cd hcd a.c b.c h12 ⟨u6, u5⟩ a.kdf_seed b.kdf_seed hs u1
      have hpp : p = p' := by rw [p1] at q1; exact (Prod.mk.inj (Prod.mk.inj q1).2).2
      subst hpp
      refine ⟨?_, ?_, ?_⟩
      · show (magma_get_asn1_parameters cd b.c b.kdf_seed p).1 = 1
        rw [q2]
      · show (magma_get_asn1_parameters cd b.c b.kdf_seed p).2.2 = _
        rw [q2]
      · show (magma_get_asn1_parameters cd b.c b.kdf_seed p).2.1.oiv.take 4 = _
        rw [q2, h11]
        exact List.take_left' h13
  | kuznyechik =>
    obtain ⟨h1, h2, h3, h4, h5, h6, h7, h8, h9, h10, h11, h12, h13⟩ := h
    have hct : kuzIsCtr a.c.type = true := by rw [h8]; rfl
    obtain ⟨p, p1, _⟩ := C48_kuznyechik cd hcd a.c a.c hct hct h12 ⟨by rw [h10]; simp [h13, zeros], h12⟩ a.kdf_seed a.kdf_seed hs hs
    refine ⟨{ a with c := { a.c with section_size := 262144 } }, p, ?_,
      ⟨h1, h2, h3, h4, rfl, h6, h7, h8, h9, h10, h11, h12, h13⟩, ?_⟩
    · show (_, _, _) = _
      rw [p1]
    · intro b ⟨u1, u2, u3, u4, u5, u6⟩ hb
      have hct' : kuzIsCtr b.c.type = true := by rw [show b.c.type = _ from hb]; rfl
      obtain ⟨p', q1, q2⟩ := C48_kuznyechik cd hcd a.c b.c hct hct' h12 ⟨u4, u3⟩ a.kdf_seed b.kdf_seed hs u1
      have hpp : p = p' := by
        rw [p1] at q1
        exact Option.some.inj (Prod.mk.inj (Prod.mk.inj q1).2).2
      subst hpp
      refine ⟨?_, ?_, ?_⟩
      · show (gost_grasshopper_get_asn1_parameters cd b.c b.kdf_seed p).1 = 1
        rw [q2]
      · show (gost_grasshopper_get_asn1_parameters cd b.c b.kdf_seed p).2.2 = _
        rw [q2]
      · show (gost_grasshopper_get_asn1_parameters cd b.c b.kdf_seed p).2.1.oiv.take 8 = _
        rw [q2, h11]
        exact List.take_left' h13

/-- **C55** The flow of CMS.  The sender initialises a new context with key and IV, stores the parameters, encrypts, finishes and puts
the tag into the attribute.  The receiver initialises a new context without a key, loads the parameters, initialises with the key, takes
the tag from the attribute, decrypts.  All calls succeed; ciphertext and tag are the message sealed with sections of 8 KiB (Magma) or
256 KiB (Kuznyechik), but the receiver decrypts and checks with sections of 1 KiB or 4 KiB. -/
theorem C55_acpkm_omac_actual (cd : Asn1Codec) (hcd : cd.Sound) (X : Crypto) (rng rng' : Nat → Fin 8 → W32) (n : OmacCipher) (d : Bytes)
    (ds draws' : List Bytes) (hd : d.length = 8) (hz : n = .magma → d ≠ zeros 8)
    (key : Bytes) (hk : key.length = 32) (iv : Bytes) (hiv : iv.length = n.block / 2) (chunks : List Bytes) :
    ∃ a1 a2 p a3 c a4, aoInit X rng n (aoFresh rng n) (some key) (some iv) true (d :: ds) = (a1, 1, ds) ∧
      aoSetParams cd n a1 = (a2, some p, 1) ∧ aoFeed n a2 chunks = some (a3, c) ∧ aoFinal X n a3 = .ret a4 [] 0 ∧
      c ++ process_unprotected_enc n a4 =
        acpkmOmacSeal engineE X.cmac X.hmac n (aoSenderSection n) key d iv chunks.flatten ∧ c.length = chunks.flatten.length ∧
      ∃ b1 b2 b3, aoInit X rng' n (aoFresh rng' n) none none false draws' = (b1, 1, draws') ∧
        aoGetParams cd n b1 p = (b2, 1) ∧ aoInit X rng' n b2 (some key) none false draws' = (b3, 1, draws') ∧
        ∀ (chunks' : List Bytes) (t : Bytes), t.length = n.block → ∃ b4 b5 o b6, process_unprotected_dec n b3 (some t) = (b4, 1) ∧
          aoFeed n b4 chunks' = some (b5, o) ∧
          o = acpkmCrypt engineE n (aoSection n) (acpkmOmacKeyPair X.hmac key d).1 iv chunks'.flatten ∧
          aoFinal X n b5 = .ret b6 [] (if chunks'.flatten ++ t =
            acpkmOmacSeal engineE X.cmac X.hmac n (aoSection n) key d iv o then 0 else -1) := by
  have hsd : acpkmOmacSeed true (aoFresh rng n).kdf_seed (d :: ds) = some (d, ds) := by
    show some (d.take 8, ds) = _
    rw [List.take_of_length_le (by omega)]
  obtain ⟨a1, i1, i2, i3⟩ := init_start X rng n (aoFresh rng n) (fresh_unused rng n) key hk (some iv) (fun v hv => by cases hv; exact hiv)
    true (d :: ds) d ds hsd hd (fun _ ha => by cases n with | magma => exact hz rfl | kuznyechik => cases ha)
  obtain ⟨a2, p, s1, s2, s3⟩ := setParams_start cd hcd n _ _ _ _ _ a1 i3 (by rw [i2]; exact hd)
  obtain ⟨a3, c, a4, r1, r2, r3, r4⟩ := ready_seal X n _ _ _ _ a2
    (start_ready n _ (by cases n <;> decide) (by cases n <;> decide) _ _ _ _ a2 s2) chunks
  refine ⟨a1, a2, p, a3, c, a4, i1, s1, r1, r2, r4, by rw [r3, acpkmCrypt_length], ?_⟩
  -- the receiver
  obtain ⟨b1, hb1, hbu, hbt⟩ : ∃ b1, aoInit X rng' n (aoFresh rng' n) none none false draws' = (b1, 1, draws') ∧ AoUnused n b1 ∧
      AoTyped n b1 := by
    have hu := init_unused X rng' n (aoFresh rng' n) (fresh_unused rng' n) none none (fun v hv => by cases hv) false [] (by simp)
    cases n with
    | magma => exact ⟨_, rfl, hu.1, trivial⟩
    | kuznyechik => exact ⟨_, rfl, hu.1, rfl⟩
  obtain ⟨g1, g2, g3⟩ := s3 b1 hbu hbt
  have hb2u := getParams_unused cd n b1 hbu p
  obtain ⟨b2, hb2⟩ : ∃ b2, aoGetParams cd n b1 p = (b2, 1) := ⟨_, Prod.ext rfl g1⟩
  rw [hb2] at g2 g3 hb2u
  dsimp only at g2 g3 hb2u
  rw [i2] at g2
  obtain ⟨b3, j1, j2, j3⟩ := init_start X rng' n b2 hb2u key hk none (fun v hv => by cases hv) false draws' b2.kdf_seed draws' rfl
    (unused_seed n b2 hb2u) (fun h => by cases h)
  rw [g2] at j3
  rw [Option.getD_none, g3] at j3
  refine ⟨b1, b2, b3, hb1, hb2, j1, fun chunks' t ht => ?_⟩
  obtain ⟨b3', o1, b4, b5, o2, b6, q1, q2, q3, q4, q5⟩ := ready_open X n _ _ _ _ b3
    (start_ready n _ (by cases n <;> decide) (by cases n <;> decide) _ _ _ _ b3 j3) [] chunks' t ht
  cases q1
  rw [List.nil_append, List.nil_append] at q4 q5
  refine ⟨b4, b5, o2, b6, q2, q3, q4, ?_⟩
  rw [q5]
  exact congrArg (AoRes.ret _ []) (if_congr (crypt_swap _ _ _ _ _ _) rfl rfl)

theorem acpkmCrypt_first (n : OmacCipher) (s1 s2 : Nat) (k iv x : Bytes) (h1 : x.length ≤ s1) (h2 : x.length ≤ s2) :
    acpkmCrypt engineE n s1 k iv x = acpkmCrypt engineE n s2 k iv x := by
  refine xorStream_congr _ _ _ _ fun i hi => ?_
  have : i / n.block * n.block ≤ i := Nat.div_mul_le_self _ _
  rw [ctrAcpkmGamma_first _ _ _ _ _ _ _ (Or.inr (by omega)), ctrAcpkmGamma_first _ _ _ _ _ _ _ (Or.inr (by omega))]

/-- **C55, partial** In that flow the receiver gets the message back and accepts the tag if message and tag fit into one section of the
receiver.  Missing: longer messages, where sender and receiver use different sections and nothing guarantees the message. -/
theorem C55_acpkm_omac_partial (cd : Asn1Codec) (hcd : cd.Sound) (X : Crypto) (rng rng' : Nat → Fin 8 → W32) (n : OmacCipher) (d : Bytes)
    (ds draws' : List Bytes) (hd : d.length = 8) (hz : n = .magma → d ≠ zeros 8)
    (key : Bytes) (hk : key.length = 32) (iv : Bytes) (hiv : iv.length = n.block / 2) (chunks : List Bytes)
    (hfit : chunks.flatten.length + n.block ≤ aoSection n) :
    ∃ a1 a2 p a3 c a4, aoInit X rng n (aoFresh rng n) (some key) (some iv) true (d :: ds) = (a1, 1, ds) ∧
      aoSetParams cd n a1 = (a2, some p, 1) ∧ aoFeed n a2 chunks = some (a3, c) ∧ aoFinal X n a3 = .ret a4 [] 0 ∧
      ∃ b1 b2 b3, aoInit X rng' n (aoFresh rng' n) none none false draws' = (b1, 1, draws') ∧
        aoGetParams cd n b1 p = (b2, 1) ∧ aoInit X rng' n b2 (some key) none false draws' = (b3, 1, draws') ∧
        ∀ chunks', chunks'.flatten = c → ∃ b4 b5 o b6, process_unprotected_dec n b3 (some (process_unprotected_enc n a4)) = (b4, 1) ∧
          aoFeed n b4 chunks' = some (b5, o) ∧ o = chunks.flatten ∧ aoFinal X n b5 = .ret b6 [] 0 := by
  obtain ⟨a1, a2, p, a3, c, a4, h1, h2, h3, h4, h5, h6, b1, b2, b3, h7, h8, h9, h10⟩ :=
    C55_acpkm_omac_actual cd hcd X rng rng' n d ds draws' hd hz key hk iv hiv chunks
  have hs : aoSection n ≤ aoSenderSection n := by cases n <;> decide
  have he : acpkmOmacSeal engineE X.cmac X.hmac n (aoSenderSection n) key d iv chunks.flatten =
      acpkmOmacSeal engineE X.cmac X.hmac n (aoSection n) key d iv chunks.flatten :=
    acpkmCrypt_first n _ _ _ _ _ (by rw [List.length_append, X.cmac_length]; omega) (by rw [List.length_append, X.cmac_length]; omega)
  rw [he] at h5
  refine ⟨a1, a2, p, a3, c, a4, h1, h2, h3, h4, b1, b2, b3, h7, h8, h9, fun chunks' hc => ?_⟩
  have ht : (process_unprotected_enc n a4).length = n.block := by
    have := congrArg List.length h5
    rw [List.length_append, acpkmOmacSeal, acpkmCrypt_length, List.length_append, X.cmac_length, h6] at this
    omega
  obtain ⟨b4, b5, o, b6, g1, g2, g3, g4⟩ := h10 chunks' _ ht
  have ho : o = chunks.flatten := by
    have h11 := congrArg (List.take chunks.flatten.length) h5
    rw [List.take_left' h6, acpkmOmacSeal, acpkmCrypt_prefix] at h11
    rw [g3, hc, h11, acpkmCrypt_twice]
  rw [hc, ho, h5, if_pos rfl] at g4
  exact ⟨b4, b5, o, b6, g1, g2, ho, g4⟩

/-! ### What the ciphers do not do -/

/-- **C62, finding** Magma: if the seed drawn is zero on a context without application data, the keys are those of the zero seed but the
context (and so the parameters) records a seed drawn after that. -/
theorem C62_magma_zero_seed (cd : Asn1Codec) (X : Crypto) (rng : Nat → Fin 8 → W32) (a : AoCtx CipherCtx) (e : Bytes)
    (ds : List Bytes) (hp : AoPrepared cd X rng .magma a (zeros 8 :: e :: ds)) (ha : a.c.appData = false) (key : Bytes)
    (hk : key.length = 32) (iv : Option Bytes) (hiv : ∀ v, iv = some v → v.length = 4) (chunks : List Bytes) :
    ∃ a1 a3 c a4, aoInit X rng .magma a (some key) iv true (zeros 8 :: e :: ds) = (a1, 1, ds) ∧ a1.kdf_seed = e ∧
      aoFeed .magma a1 chunks = some (a3, c) ∧ aoFinal X .magma a3 = .ret a4 [] 0 ∧
      c ++ process_unprotected_enc .magma a4 = acpkmOmacSeal engineE X.cmac X.hmac .magma 1024 key (zeros 8)
        (iv.getD (aoIv .magma a)) chunks.flatten := by
  obtain ⟨hu, hd⟩ := hp.unused
  have he : e.length = 8 := hd e (by simp)
  obtain ⟨k1, k2, _⟩ := keyPair_eq X key (zeros 8)
  have hkeys := acpkmOmacKeys_eq X rng .magma key (zeros 8) hk rfl
  have hst := magma_seed_start a hu (acpkmOmacKeyPair X.hmac key (zeros 8)).1 (acpkmOmacKeyPair X.hmac key (zeros 8)).2 k1 iv hiv true e
  obtain ⟨a3, c, a4, r1, r2, _, r4⟩ := ready_seal X .magma 1024 _ _ _ _ (start_ready .magma 1024 (by decide) (by decide) _ _ _ _ _ hst) chunks
  refine ⟨_, a3, c, a4, ?_, rfl, r1, r2, r4⟩
  show magma_cipher_init_ctr_acpkm_omac X rng a (some key) iv true (zeros 8 :: e :: ds) = _
  unfold magma_cipher_init_ctr_acpkm_omac
  have h1 : acpkmOmacSeed true a.kdf_seed (zeros 8 :: e :: ds) = some (zeros 8, e :: ds) := rfl
  simp only [h1, hkeys]
  unfold magma_cipher_init_seed
  have h2 : init_zero_kdf_seed (zeros 8) (e :: ds) = some (e, ds) := by
    show some (e.take 8, ds) = _
    rw [List.take_of_length_le (by omega)]
  simp only [ha, Bool.not_false, Bool.and_self, if_true, h2]

/-- **C62, finding** Starting a second message by an initialisation with a new IV and no key does not start a new MAC: the tag of the
second message is the encrypted MAC of both. -/
theorem C62_new_iv_keeps_mac (X : Crypto) (rng : Nat → Fin 8 → W32) (n : OmacCipher) (sec : Nat) (ke km iv iv' : Bytes)
    (a : AoCtx (AoState n)) (h : AoReady n sec ke km iv true a) (draws : List Bytes) (h0 : a.kdf_seed ≠ zeros 8 ∨ draws ≠ [])
    (hs : a.kdf_seed.length = 8) (chunks1 chunks2 : List Bytes) :
    ∃ a1 c1 a2 ds a3 c2 a4, aoFeed n a chunks1 = some (a1, c1) ∧ aoInit X rng n a1 none (some iv') true draws = (a2, 1, ds) ∧
      aoFeed n a2 chunks2 = some (a3, c2) ∧ aoFinal X n a3 = .ret a4 [] 0 ∧
      a4.tag = memcpy a3.tag (aoDo n a3.c (X.cmac n km (chunks1.flatten ++ chunks2.flatten))).2 n.block := by
  obtain ⟨f1, f2⟩ := aoFeed_eq n chunks1 a km [] h.omac
  rw [h.enc] at f1 f2
  simp only [if_true, List.nil_append] at f1
  generalize (feed (aoDo n) a.c chunks1).1 = c1 at *
  obtain ⟨a2, ds, i1, i2, i3⟩ : ∃ a2 ds, aoInit X rng n (AoCtx.mk c1 (some (omacSign n km chunks1.flatten)) a.kdf_seed a.tag) none (some iv')
      true draws = (a2, 1, ds) ∧ a2.omac_ctx = some (omacSign n km chunks1.flatten) ∧ aoEnc n a2.c = true := by
    cases n with
    | kuznyechik => exact ⟨_, _, rfl, rfl, rfl⟩
    | magma =>
      have henc : ∀ c : CipherCtx, (magma_cipher_init c none (some iv') true 4 true).encrypting = true := by
        intro c
        unfold magma_cipher_init gost_cipher_set_param
        dsimp only
        split <;> rfl
      show ∃ a2 ds, magma_cipher_init_seed _ none (some iv') true draws = _ ∧ _
      unfold magma_cipher_init_seed
      split
      · have : ∃ s ds, init_zero_kdf_seed a.kdf_seed draws = some (s, ds) := by
          unfold init_zero_kdf_seed
          split
          · next hall =>
            rw [List.take_of_length_le (by omega), all_zero _ 8 hs] at hall
            cases draws with
            | nil => rcases h0 with h0 | h0 <;> contradiction
            | cons d ds => exact ⟨_, _, rfl⟩
          · exact ⟨_, _, rfl⟩
        obtain ⟨s, ds, hsd⟩ := this
        simp only [hsd]
        exact ⟨_, _, rfl, rfl, henc _⟩
      · exact ⟨_, _, rfl, rfl, henc _⟩
  obtain ⟨g1, g2⟩ := aoFeed_eq n chunks2 a2 km _ i2
  rw [i3] at g1 g2
  simp only [if_true] at g1
  have hfin := aoFinal_eq X n (AoCtx.mk (feed (aoDo n) a2.c chunks2).1 (some (omacSign n km (chunks1.flatten ++ chunks2.flatten)))
    a2.kdf_seed a2.tag) km _ rfl
  rw [if_pos g2] at hfin
  exact ⟨_, _, a2, ds, _, _, _, f1, i1, g1, hfin, rfl⟩

/-- **C62, finding** Data on a context that never got a key, or whose initialisation failed for want of random bytes, make the engine
dereference a null pointer. -/
theorem C62_no_key_crashes (X : Crypto) (rng : Nat → Fin 8 → W32) (n : OmacCipher) (key iv : Option Bytes) (enc : Bool)
    (draws : List Bytes) (h : key = none ∨ (enc = true ∧ draws = [])) (x : Bytes) :
    aoUpdate n (aoInit X rng n (aoFresh rng n) key iv enc draws).1 x = .nullDeref ∧
    aoFinal X n (aoInit X rng n (aoFresh rng n) key iv enc draws).1 = .nullDeref ∧
    (key ≠ none → (aoInit X rng n (aoFresh rng n) key iv enc draws).2.1 = 0) := by
  have key' : (aoInit X rng n (aoFresh rng n) key iv enc draws).1.omac_ctx = none ∧
      (key ≠ none → (aoInit X rng n (aoFresh rng n) key iv enc draws).2.1 = 0) := by
    rcases h with h | ⟨h1, h2⟩
    · subst h
      refine ⟨?_, fun h => absurd rfl h⟩
      cases n with
      | kuznyechik => rfl
      | magma =>
        show (magma_cipher_init_seed _ none iv enc draws).1.omac_ctx = none
        unfold magma_cipher_init_seed
        split
        · split <;> rfl
        · rfl
    · subst h1 h2
      cases key with
      | none =>
        refine ⟨?_, fun h => absurd rfl h⟩
        cases n with
        | kuznyechik => rfl
        | magma =>
          show (magma_cipher_init_seed _ none iv true []).1.omac_ctx = none
          unfold magma_cipher_init_seed
          split
          · split <;> rfl
          · rfl
      | some k => cases n <;> exact ⟨rfl, fun _ => rfl⟩
  refine ⟨?_, ?_, key'.2⟩
  · generalize (aoInit X rng n (aoFresh rng n) key iv enc draws).1 = a at *
    cases n
    · simp only [aoUpdate, magma_cipher_do_ctr_acpkm_omac, key'.1]
    · simp only [aoUpdate, gost_grasshopper_cipher_do_ctracpkm_omac, key'.1]
  · generalize (aoInit X rng n (aoFresh rng n) key iv enc draws).1 = a at *
    cases n
    · simp only [aoFinal, magma_cipher_final_ctr_acpkm_omac, key'.1]
    · simp only [aoFinal, gost_grasshopper_cipher_final_ctracpkm_omac, key'.1]

/-- **C62** A copy of a keyed context, made after any data, is the same as the original; a context without a key cannot be copied. -/
theorem C62_copy (n : OmacCipher) (sec : Nat) (ke km iv : Bytes) (enc : Bool) (a : AoCtx (AoState n)) (h : AoReady n sec ke km iv enc a)
    (chunks : List Bytes) : ∃ a1 c, aoFeed n a chunks = some (a1, c) ∧ acpkm_omac_copy a1 = (a1, 1) := by
  obtain ⟨f1, _⟩ := aoFeed_eq n chunks a km [] h.omac
  exact ⟨_, _, f1, rfl⟩

/-! ### Witnesses -/

/-- A Magma context prepared as a CMS receiver does: initialised without a key, parameters loaded, then used to encrypt; the hypotheses of
`C62_encrypt`, `C27_acpkm_omac_tag_check` and `C62_roundtrip` are met by it and by fresh contexts of both ciphers. -/
example (X : Crypto) (n : OmacCipher) : ∃ a, AoPrepared DerWit.codec X witRng n a [[1, 2, 3, 4, 5, 6, 7, 8]] ∧
    a.kdf_seed = zeros 8 ∧ ([1, 2, 3, 4, 5, 6, 7, 8] : Bytes) ≠ zeros 8 ∧ sampleKey.length = 32 ∧
    AoSectionOk n (some 4096) ∧ (List.replicate (n.block / 2) (7 : Byte)).length = n.block / 2 :=
  ⟨aoFresh witRng n, ⟨[], [[1, 2, 3, 4, 5, 6, 7, 8]], by simp, by simp, rfl⟩, by cases n <;> rfl, by decide, rfl,
    fun s hs => by cases hs; cases n <;> decide, by simp⟩

/-- The ready contexts of `C62_new_iv_keeps_mac` and `C62_copy` exist. -/
example (X : Crypto) (n : OmacCipher) : ∃ a, AoReady n (aoSection n) (acpkmOmacKeyPair X.hmac sampleKey [1, 2, 3, 4, 5, 6, 7, 8]).1
    (acpkmOmacKeyPair X.hmac sampleKey [1, 2, 3, 4, 5, 6, 7, 8]).2 (List.replicate (n.block / 2) 7) true a ∧
    a.kdf_seed ≠ zeros 8 ∧ a.kdf_seed.length = 8 := by
  obtain ⟨a, _, h2, h3⟩ := init_start X witRng n (aoFresh witRng n) (fresh_unused _ n) sampleKey rfl (some (List.replicate (n.block / 2) 7))
    (fun v hv => by cases hv; simp) true [[1, 2, 3, 4, 5, 6, 7, 8]] [1, 2, 3, 4, 5, 6, 7, 8] [] rfl rfl (fun _ _ => by decide)
  exact ⟨a, start_ready n _ (by cases n <;> decide) (by cases n <;> decide) _ _ _ _ a h3, by rw [h2]; decide, by rw [h2]; rfl⟩

/-- A receiver's context with the sender's seed. -/
example (X : Crypto) : ∃ b, AoPrepared DerWit.codec X witRng .magma b [] ∧ b.kdf_seed = [1, 2, 3, 4, 5, 6, 7, 8] ∧
    aoIv .magma b = [9, 9, 9, 9] := by
  refine ⟨_, ⟨[.init none none false, .params (.seq (DerWit.codec.enc2015 ([9, 9, 9, 9] ++ [1, 2, 3, 4, 5, 6, 7, 8])))], [], ?_, ?_, rfl⟩,
    ?_, ?_⟩
  · intro p hp
    simp only [List.mem_cons, List.not_mem_nil, or_false] at hp
    rcases hp with rfl | rfl
    · intro v hv; cases hv
    · trivial
  · simp
  · have := C47_magma_partial DerWit.codec (magma_cipher_init (freshCtx witRng false) none none false 4 true) ⟨rfl, rfl⟩ (zeros 8) rfl _ _
      (DerWit.codec_sound.r2015 ([9, 9, 9, 9] ++ [1, 2, 3, 4, 5, 6, 7, 8]) (by decide)) rfl
    exact congrArg (fun t => t.2.2) this
  · have := C47_magma_partial DerWit.codec (magma_cipher_init (freshCtx witRng false) none none false 4 true) ⟨rfl, rfl⟩ (zeros 8) rfl _ _
      (DerWit.codec_sound.r2015 ([9, 9, 9, 9] ++ [1, 2, 3, 4, 5, 6, 7, 8]) (by decide)) rfl
    exact congrArg (fun t => t.2.1.oiv.take 4) this

end Gost
