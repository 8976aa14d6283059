import Verif.Lemmas.Resources
/-!
# C82: a call frees what it allocated, exactly once, whatever fails

`Tidy` (`Spec/Resources.lean`) is about the list of things a call does to objects; `Exec never f` are the executions of `f` in which none of the
failures in `never` occurs (all other conditions and allocations can go either way, loops run any number of times).
-/

namespace Gost

open Res Spec

namespace Spec

/-- Every execution of `f` without the failures in `never` manages its objects correctly. -/
def Clean (never : List Nat) (f : Stm) : Prop := ∀ t o, Exec never f .start t o → Tidy t.tr

/-- Some execution leaves an object that nobody owns. -/
def Leaks (f : Stm) : Prop :=
  ∃ t o, Exec [] f .start t o ∧ ∃ p, ResEv.alloc p ∈ t.tr ∧ ResEv.free p ∉ t.tr ∧ ResEv.give p ∉ t.tr

/-- Some execution frees an object twice. -/
def FreesTwice (f : Stm) : Prop := ∃ t o, Exec [] f .start t o ∧ ∃ p, t.tr.count (.free p) = 2

/-- Some execution frees an object of the caller. -/
def FreesOthers (f : Stm) : Prop := ∃ t o, Exec [] f .start t o ∧ ∃ p, ResEv.lent p ∈ t.tr ∧ ResEv.free p ∈ t.tr

/-- Some execution follows a NULL pointer. -/
def FollowsNull (f : Stm) : Prop := ∃ t o, Exec [] f .start t o ∧ ResEv.nullUse ∈ t.tr

end Spec

theorem clean {never : List Nat} {f : Stm} (h : check never f = true) : Clean never f := fun _ _ he => clean_of_check h he

/-- The four ways to go wrong are exclusive with correct management. -/
theorem C82_violations_are_violations (f : Stm) : Leaks f ∨ FreesTwice f ∨ FreesOthers f ∨ FollowsNull f → ¬ Clean [] f := by
  rintro (h | h | h | h) hc
  · obtain ⟨t, o, e, p, h1, h2, h3⟩ := h
    have := (hc t o e).once p h1
    rw [List.count_eq_zero.2 h2, List.count_eq_zero.2 h3] at this
    omega
  · obtain ⟨t, o, e, p, h1⟩ := h
    have hf : ResEv.free p ∈ t.tr := List.count_pos_iff.1 (by omega)
    obtain ⟨b, a, hba⟩ := List.append_of_mem hf
    have hd := (hc t o e).dead p b a hba
    have hnotA : ResEv.free p ∉ a := fun h => hd _ h rfl
    by_cases hb : ResEv.free p ∈ b
    · obtain ⟨b1, b2, hb12⟩ := List.append_of_mem hb
      have : t.tr = b1 ++ ResEv.free p :: (b2 ++ ResEv.free p :: a) := by rw [hba, hb12]; simp
      exact (hc t o e).dead p b1 _ this (ResEv.free p) (by simp) rfl
    · rw [hba, List.count_append, List.count_cons_self, List.count_eq_zero.2 hb, List.count_eq_zero.2 hnotA] at h1
      omega
  · obtain ⟨t, o, e, p, h1, h2⟩ := h
    exact ((hc t o e).others p h1).1 h2
  · obtain ⟨t, o, e, h1⟩ := h
    exact (hc t o e).noNull h1

/-! ## Results are handed over -/

namespace Spec

/-- When none of the failures in `never` occurs, the call hands something over. -/
def Delivers (never : List Nat) (f : Stm) : Prop := ∀ t o, Exec never f .start t o → ∃ p, ResEv.give p ∈ t.tr

end Spec

theorem delivers {never : List Nat} {f : Stm} (h : (match post never f A.start with
    | none => false
    | some L => L.all fun r => r.1.vars.any fun v => v == .given) = true) : Delivers never f := by
  intro t o he
  cases hL : post never f A.start with
  | none => rw [hL] at h; cases h
  | some L =>
    rw [hL] at h
    obtain ⟨b, hb, hr⟩ := post_sound never f rel_start he hL
    have hv := List.all_eq_true.1 h _ hb
    obtain ⟨v, hv1, hv2⟩ := List.any_eq_true.1 hv
    obtain ⟨x, hx, hxv⟩ := List.getElem_of_mem hv1
    have hg : b.get x = .given := by
      show b.vars.getD x .null = .given
      rw [List.getD_eq_getElem?_getD, List.getElem?_eq_getElem hx, hxv]
      exact eq_of_beq hv2
    obtain ⟨p, -, -, hp⟩ := hr.held x (by rw [hg]; decide)
    rw [hg] at hp
    have := phase_says p _ t.tr rfl
    rw [hp] at this
    exact ⟨p, List.count_pos_iff.1 (by have h2 : t.tr.count (.give p) = 1 := this.2.1; omega)⟩

/-- Calls whose result is an object: when nothing fails, the object is handed over (not freed, not lost). -/
theorem C82_results : Delivers [0, 1] gost_ec_sign ∧ Delivers [0] encode_gost_algor_params ∧ Delivers [0] gost_decode_nid_params ∧
    Delivers [0] gost_encode_cms_params ∧ Delivers [0, 1] priv_encode_gost ∧ Delivers [0, 1] pub_encode_gost_ec ∧ Delivers [0] pkey_gost_init ∧
    Delivers [0] pkey_gost_mac_init ∧ Delivers [0] pkey_gost2001_paramgen ∧ Delivers [0] pkey_gost2012_paramgen ∧ Delivers [0, 1] unpack_cp_signature ∧
    Delivers [0, 1] pkey_gost_mac_keygen_base ∧ Delivers [0, 1] unmask_priv_key ∧ Delivers [0, 1] gost89_set_asn1_parameters :=
  ⟨delivers (by decide +kernel), delivers (by decide +kernel), delivers (by decide +kernel), delivers (by decide +kernel), delivers (by decide +kernel),
    delivers (by decide +kernel), delivers (by decide +kernel), delivers (by decide +kernel), delivers (by decide +kernel), delivers (by decide +kernel),
    delivers (by decide +kernel), delivers (by decide +kernel), delivers (by decide +kernel), delivers (by decide +kernel)⟩

/-! ## Functions that are right on every path -/

/-- Verification, public keys, key generation, signing and verifying through EVP. -/
theorem C82_signatures : Clean [] gost_ec_verify ∧ Clean [] gost_ec_compute_public ∧ Clean [] gost_ec_keygen ∧
    Clean [] pkey_gost_ec_cp_sign ∧ Clean [] pkey_gost_ec_cp_verify :=
  ⟨clean (by decide +kernel), clean (by decide +kernel), clean (by decide +kernel), clean (by decide +kernel), clean (by decide +kernel)⟩

/-- Key agreement, reading transported keys, key export and import. -/
theorem C82_key_agreement : Clean [] VKO_compute_key ∧ Clean [] pkey_GOST_ECcp_decrypt ∧ Clean [] pkey_gost2018_decrypt ∧
    Clean [] gost_kexp15 ∧ Clean [] gost_kimp15 :=
  ⟨clean (by decide +kernel), clean (by decide +kernel), clean (by decide +kernel), clean (by decide +kernel), clean (by decide +kernel)⟩

/-- Encoding, decoding, copying and printing of key parameters. -/
theorem C82_key_parameters : Clean [] encode_gost_algor_params ∧ Clean [] gost_decode_nid_params ∧ Clean [] decode_gost_algor_params ∧
    Clean [] gost_encode_cms_params ∧ Clean [] print_gost_ec_pub ∧ Clean [] param_copy_gost_ec :=
  ⟨clean (by decide +kernel), clean (by decide +kernel), clean (by decide +kernel), clean (by decide +kernel), clean (by decide +kernel),
    clean (by decide +kernel)⟩

/-- Contexts, their text controls, and parameter generation. -/
theorem C82_contexts : Clean [] pkey_gost_init ∧ Clean [] pkey_gost_mac_init ∧ Clean [] ctrl_str_ukm ∧ Clean [] ctrl_str_hexkey ∧
    Clean [] ctrl_str_paramset ∧ Clean [] pkey_gost2001_paramgen ∧ Clean [] pkey_gost2012_paramgen :=
  ⟨clean (by decide +kernel), clean (by decide +kernel), clean (by decide +kernel), clean (by decide +kernel), clean (by decide +kernel),
    clean (by decide +kernel), clean (by decide +kernel)⟩

/-! ## Functions that are right unless a named failure occurs -/

/-- Filling in curve parameters is right unless a step between the making of the group and its caching fails. -/
theorem C82_fill_params_partial : Clean [1] fill_GOST_EC_params := clean (by decide +kernel)

/-- Signing is right unless the copies of `r` and `s` cannot be allocated. -/
theorem C82_sign_partial : Clean [1] gost_ec_sign := clean (by decide +kernel)

/-- Key transport (CryptoPro) is right unless the ephemeral key object cannot be made (1) or the result cannot be encoded or does not
fit (2). -/
theorem C82_transport_partial : Clean [1, 2] pkey_GOST_ECcp_encrypt := clean (by decide +kernel)

/-- Key transport (2018) is right unless the ephemeral key pair cannot be completed. -/
theorem C82_transport_2018_partial : Clean [1] pkey_gost2018_encrypt := clean (by decide +kernel)

/-- KDF_TREE is right if the length asked for is a positive multiple of 32. -/
theorem C82_kdf_partial : Clean [1] gost_kdftree2012_256 := clean (by decide +kernel)

/-- Setting a private key is right unless the `EC_KEY` cannot be allocated or assigned. -/
theorem C82_set_priv_key_partial : Clean [1] gost_set_priv_key := clean (by decide +kernel)

/-- Key agreement of CMS is right if the message does not carry the originator's public key. -/
theorem C82_cms_agreement_partial : Clean [3] gost_cms_set_kari_shared_info := clean (by decide +kernel)

/-- Reading and writing keys is right unless the named steps (conversions to BIGNUMs, the final hand-over, `EC_POINT_new`) fail. -/
theorem C82_key_encoding_partial : Clean [1] unmask_priv_key ∧ Clean [1] priv_decode_gost ∧ Clean [1] priv_encode_gost ∧
    Clean [1] pub_decode_gost_ec ∧ Clean [1] pub_encode_gost_ec :=
  ⟨clean (by decide +kernel), clean (by decide +kernel), clean (by decide +kernel), clean (by decide +kernel), clean (by decide +kernel)⟩

/-- Unpacking of signatures, MAC key generation and the parameters of ciphers are right unless the named step fails. -/
theorem C82_small_partial : Clean [1] unpack_cp_signature ∧ Clean [1] pkey_gost_mac_keygen_base ∧ Clean [1] gost89_set_asn1_parameters ∧
    Clean [1] gost89_get_asn1_parameters :=
  ⟨clean (by decide +kernel), clean (by decide +kernel), clean (by decide +kernel), clean (by decide +kernel)⟩

/-! ## The failures that are handled wrongly -/

theorem leaks_of_run {f : Stm} {cs : List Bool} (p : Nat)
    (h : (runTrace f cs).any (fun tr => .alloc p ∈ tr ∧ .free p ∉ tr ∧ .give p ∉ tr) = true) : Leaks f := by
  cases hr : runTrace f cs with
  | none => rw [hr] at h; cases h
  | some tr =>
    rw [hr] at h
    obtain ⟨t, o, e, ht⟩ := exec_of_run hr
    subst ht
    exact ⟨t, o, e, p, by simpa using h⟩

theorem twice_of_run {f : Stm} {cs : List Bool} (p : Nat) (h : (runTrace f cs).any (fun tr => tr.count (.free p) = 2) = true) :
    FreesTwice f := by
  cases hr : runTrace f cs with
  | none => rw [hr] at h; cases h
  | some tr =>
    rw [hr] at h
    obtain ⟨t, o, e, ht⟩ := exec_of_run hr
    subst ht
    exact ⟨t, o, e, p, by simpa using h⟩

theorem others_of_run {f : Stm} {cs : List Bool} (p : Nat) (h : (runTrace f cs).any (fun tr => .lent p ∈ tr ∧ .free p ∈ tr) = true) :
    FreesOthers f := by
  cases hr : runTrace f cs with
  | none => rw [hr] at h; cases h
  | some tr =>
    rw [hr] at h
    obtain ⟨t, o, e, ht⟩ := exec_of_run hr
    subst ht
    exact ⟨t, o, e, p, by simpa using h⟩

theorem null_of_run {f : Stm} {cs : List Bool} (h : (runTrace f cs).any (fun tr => .nullUse ∈ tr) = true) : FollowsNull f := by
  cases hr : runTrace f cs with
  | none => rw [hr] at h; cases h
  | some tr =>
    rw [hr] at h
    obtain ⟨t, o, e, ht⟩ := exec_of_run hr
    subst ht
    exact ⟨t, o, e, by simpa using h⟩

/-- Decisions as 0 and 1. -/
def bits (l : List Nat) : List Bool := l.map (· == 1)

/-- The buffer for the transported key is too small: the ephemeral key, private part included, is freed twice. -/
theorem C82_transport_false : FreesTwice pkey_GOST_ECcp_encrypt :=
  twice_of_run (cs := bits [1, 0, 0, 0, 1, 1, 0, 0, 0, 0, 1, 0, 0, 0, 0, 0, 1]) 0 (by decide +kernel)

/-- A CMS message with the originator's public key: when the agreement fails afterwards, the message's own bytes are freed; and when it
succeeds, the temporary public key is leaked (`t.flag 0`: the call returns 1). -/
theorem C82_cms_agreement_false : FreesOthers gost_cms_set_kari_shared_info ∧
    ∃ t o, Exec [] gost_cms_set_kari_shared_info .start t o ∧ t.flag 0 = true ∧
      ResEv.alloc 1 ∈ t.tr ∧ ResEv.free 1 ∉ t.tr ∧ ResEv.give 1 ∉ t.tr := by
  refine ⟨others_of_run (cs := bits [0, 0, 0, 0, 0, 1, 1, 1, 0, 0, 0, 1]) 2 (by decide +kernel), ?_⟩
  have h : ((run gost_cms_set_kari_shared_info .start (bits [0, 0, 0, 0, 0, 1, 1, 1, 0, 0, 0, 0, 0])).any fun r =>
      r.1.flag 0 && decide (ResEv.alloc 1 ∈ r.1.tr ∧ ResEv.free 1 ∉ r.1.tr ∧ ResEv.give 1 ∉ r.1.tr)) = true := by decide +kernel
  cases hr : run gost_cms_set_kari_shared_info .start (bits [0, 0, 0, 0, 0, 1, 1, 1, 0, 0, 0, 0, 0]) with
  | none => rw [hr] at h; cases h
  | some r =>
    rw [hr] at h
    obtain ⟨t, o, c⟩ := r
    exact ⟨t, o, run_sound _ _ _ _ _ _ hr, by simpa using h⟩

/-- Parameters of a cipher that cannot be decoded: a NULL pointer is followed. -/
theorem C82_get_parameters_false : FollowsNull gost89_get_asn1_parameters :=
  null_of_run (cs := bits [0, 0, 0, 0, 0]) (by decide +kernel)

/-- KDF_TREE with a wrong length leaks its HMAC context. -/
theorem C82_kdf_false : Leaks gost_kdftree2012_256 := leaks_of_run (cs := bits [1, 1]) 0 (by decide +kernel)

/-- A public key that is not there: writing it leaks the encoded parameters. -/
theorem C82_pub_encode_false : Leaks pub_encode_gost_ec := leaks_of_run (cs := bits [1, 1, 0, 0, 1]) 0 (by decide +kernel)

/-- Failures of the 2018 key transport leak the ephemeral key. -/
theorem C82_transport_2018_false : Leaks pkey_gost2018_encrypt := leaks_of_run (cs := bits [0, 1, 0, 1, 1, 0, 1]) 1 (by decide +kernel)

/-- Writing a private key leaks the buffer with the key when the last step fails. -/
theorem C82_priv_encode_false : Leaks priv_encode_gost := leaks_of_run (cs := bits [0, 1, 0, 1, 0, 1]) 0 (by decide +kernel)

/-- Lack of memory: leaks. -/
theorem C82_memory_leaks_false : Leaks fill_GOST_EC_params ∧ Leaks gost_ec_sign ∧ Leaks unmask_priv_key ∧ Leaks priv_decode_gost ∧
    Leaks unpack_cp_signature ∧ Leaks pkey_gost_mac_keygen_base ∧ Leaks gost89_set_asn1_parameters :=
  ⟨leaks_of_run (cs := bits [0, 0, 1, 0, 0, 1, 0]) 1 (by decide +kernel),
   leaks_of_run (cs := bits [1, 1, 1, 0, 0, 0, 0, 1, 0, 0, 0, 0, 0, 0, 0, 0, 0, 0, 1, 0]) 4 (by decide +kernel),
   leaks_of_run (cs := bits [1, 1]) 0 (by decide +kernel),
   leaks_of_run (cs := bits [0, 0, 0, 0, 1, 1, 0, 1, 1]) 1 (by decide +kernel),
   leaks_of_run (cs := bits [1, 1, 0]) 1 (by decide +kernel),
   leaks_of_run (cs := bits [0, 1, 1]) 0 (by decide +kernel),
   leaks_of_run (cs := bits [1, 0, 1, 1, 1]) 2 (by decide +kernel)⟩

/-- Lack of memory: NULL pointers followed. -/
theorem C82_memory_null_false : FollowsNull gost_set_priv_key ∧ FollowsNull unmask_priv_key ∧ FollowsNull pub_decode_gost_ec :=
  ⟨null_of_run (cs := bits [0, 0, 0, 0, 0]) (by decide +kernel),
   null_of_run (cs := bits [1, 0, 1, 1, 0, 1, 0, 0, 1, 0]) (by decide +kernel),
   null_of_run (cs := bits [0, 0, 1, 1, 1, 1, 0, 0]) (by decide +kernel)⟩

/-! ## Witnesses: the executions are there, with objects in them -/

/-- A verification that runs to its end makes three objects and frees three. -/
example : runTrace gost_ec_verify (bits [1, 0, 0, 0, 1, 0, 0, 0, 1, 0, 0, 0]) =
    some [.alloc 0, .use 0, .alloc 1, .use 1, .use 0, .use 0, .alloc 2, .use 2, .use 0, .use 2, .use 0, .free 2, .use 0, .free 0, .free 1] := by
  decide +kernel

/-- A signature after two unlucky draws of `k` in the inner loop and one in the outer. -/
example : ((runTrace gost_ec_sign (bits [1, 1, 1, 0, 0, 0, 0, 1, 0, 0, 0, 0, 0, 0, 1, 0, 0, 0, 0, 0, 1, 0, 0, 0, 0, 0, 0, 0, 0,
    1, 0, 0, 0, 0, 0, 0, 0, 0, 0, 1, 1])).map fun tr => (tr.count (.give 2), tr.count (.free 0), tr.count (.free 1), tr.count (.free 3))) =
    some (1, 1, 1, 1) := by decide +kernel

/-- The executions that the restricted statements speak about exist: a derivation of no key block. -/
example : ∃ t o, Exec [1, 2] gost_kdftree2012_256 .start t o ∧ ResEv.alloc 0 ∈ t.tr :=
  ⟨((St.start.make 0 .alloc).log (.free 0)), .fall, Or.inl ⟨St.start.make 0 .alloc, ⟨rfl, Or.inl rfl⟩, Or.inl ⟨St.start.make 0 .alloc,
    Or.inr ⟨by simp [St.make, St.setVar], rfl, rfl⟩, Or.inl ⟨St.start.make 0 .alloc, Or.inr ⟨rfl, rfl⟩,
      Or.inl ⟨St.start.make 0 .alloc, .stop _, rfl, rfl⟩⟩⟩⟩, by simp [St.make, St.log, St.start]⟩

/-- A context is made and handed over without any failure: the executions that `C82_results` speaks about exist. -/
example : ∃ t, Exec [0] pkey_gost_init .start t .fall ∧ t.tr.count (.give 0) = 1 := by
  refine ⟨((St.start.make 0 .alloc).log (.use 0)).log (.give 0), ?_, by simp [St.make, St.log, St.start, List.count]⟩
  refine Or.inl ⟨St.start.make 0 .alloc, ⟨rfl, Or.inl rfl⟩, Or.inl ⟨St.start.make 0 .alloc, Or.inr ⟨by simp [St.make, St.setVar], rfl, rfl⟩,
    Or.inl ⟨(St.start.make 0 .alloc).log (.use 0), ⟨rfl, rfl⟩, Or.inl ⟨(St.start.make 0 .alloc).log (.use 0), Or.inr ⟨rfl, rfl⟩, ?_⟩⟩⟩⟩
  first | exact ⟨rfl, rfl⟩ | exact Or.inl ⟨_, ⟨rfl, rfl⟩, rfl, rfl⟩

end Gost
