import Verif.Spec.Resources
/-!
# The heap objects of a call: which are made, used, handed over and freed on each path

The functions below are transcribed to a small language that keeps what matters for their objects: allocations (each of which may fail),
frees, uses, transfers of ownership, tests against NULL, the flags that decide what is freed, loops, `goto` the clean-up label, `return`.
A condition on anything else (a library call that fails, a length, a type) can come out either way. Labels (`Nat`) name the failures, so
that a theorem can say which of them must not occur; label 0 is any failure.

Objects that live inside another object and go with it (BIGNUMs of a `BN_CTX`, the BIGNUMs of an `ECDSA_SIG`) are not listed separately;
taking a BIGNUM out of a `BN_CTX` is a use of the `BN_CTX`. Objects of the caller appear only where the code could free or give them away.
Variables start as NULL, also those without an initialiser.
-/

namespace Gost.Res

open Spec

/-- Statements. -/
inductive Stm where
  | skip
  /-- `x = T_new()`: a new object, or NULL. -/
  | alloc (n x : Nat)
  /-- `x = …get0…()`: an object of somebody else. -/
  | borrow (x : Nat)
  | null (x : Nat)
  | free (x : Nat)
  | use (x : Nat)
  | give (x : Nat)
  | set (f : Nat) (b : Bool)
  | seq (a b : Stm)
  /-- A condition outside the model: failure `n` happens (`a`) or not (`b`). -/
  | choice (n : Nat) (a b : Stm)
  | ifnull (x : Nat) (a b : Stm)
  | ifset (f : Nat) (a b : Stm)
  | loop (a : Stm)
  /-- Jump to the end of the enclosing `block`. -/
  | goto
  | ret
  | block (a : Stm)
deriving DecidableEq, Repr

/-- How a statement ends. -/
inductive Out where
  | fall | jump | done
deriving DecidableEq, Repr

/-- A state: pointers in variables, flags, number of objects so far, what happened. -/
structure St where
  env : Nat → Option Nat
  flag : Nat → Bool
  next : Nat
  tr : List ResEv

def St.setVar (s : St) (x : Nat) (v : Option Nat) : St := { s with env := fun y => if y = x then v else s.env y }
def St.log (s : St) (e : ResEv) : St := { s with tr := s.tr ++ [e] }
def St.make (s : St) (x : Nat) (e : Nat → ResEv) : St :=
  { s.setVar x (some s.next) with next := s.next + 1, tr := s.tr ++ [e s.next] }

/-- The state in which a call starts. -/
def St.start : St := ⟨fun _ => none, fun _ => false, 0, []⟩

/-- Zero or more rounds of a loop body. -/
inductive Rounds (R : St → St → Out → Prop) : St → St → Out → Prop where
  | stop (s : St) : Rounds R s s .fall
  | next {s t u : St} {o : Out} : R s t .fall → Rounds R t u o → Rounds R s u o
  | leave {s t : St} {o : Out} : R s t o → o ≠ .fall → Rounds R s t o

/-- The executions of a statement when none of the failures in `never` occurs. -/
def Exec (never : List Nat) : Stm → St → St → Out → Prop
  | .skip, s, t, o => t = s ∧ o = .fall
  | .alloc n x, s, t, o => o = .fall ∧ (t = s.make x .alloc ∨ (n ∉ never ∧ t = s.setVar x none))
  | .borrow x, s, t, o => o = .fall ∧ t = s.make x .lent
  | .null x, s, t, o => o = .fall ∧ t = s.setVar x none
  | .free x, s, t, o => o = .fall ∧ (match s.env x with
      | none => t = s
      | some p => t = s.log (.free p))
  | .use x, s, t, o => o = .fall ∧ (match s.env x with
      | none => t = s.log .nullUse
      | some p => t = s.log (.use p))
  | .give x, s, t, o => o = .fall ∧ (match s.env x with
      | none => t = s
      | some p => t = s.log (.give p))
  | .set f b, s, t, o => o = .fall ∧ t = { s with flag := fun g => if g = f then b else s.flag g }
  | .seq a b, s, t, o => (∃ m, Exec never a s m .fall ∧ Exec never b m t o) ∨ (o ≠ .fall ∧ Exec never a s t o)
  | .choice n a b, s, t, o => (n ∉ never ∧ Exec never a s t o) ∨ Exec never b s t o
  | .ifnull x a b, s, t, o => (s.env x = none ∧ Exec never a s t o) ∨ (s.env x ≠ none ∧ Exec never b s t o)
  | .ifset f a b, s, t, o => (s.flag f = true ∧ Exec never a s t o) ∨ (s.flag f = false ∧ Exec never b s t o)
  | .loop a, s, t, o => Rounds (Exec never a) s t o
  | .goto, s, t, o => t = s ∧ o = .jump
  | .ret, s, t, o => t = s ∧ o = .done
  | .block a, s, t, o => (o = .fall ∧ (Exec never a s t .fall ∨ Exec never a s t .jump)) ∨ (o = .done ∧ Exec never a s t .done)

/-- Statements in order. -/
def prog : List Stm → Stm
  | [] => .skip
  | [a] => a
  | a :: l => .seq a (prog l)

/-- `if (failure n) goto err;` -/
def fails (n : Nat) : Stm := .choice n .goto .skip
/-- `if (failure n) return …;` -/
def failsRet (n : Nat) : Stm := .choice n .ret .skip
/-- `if (x == NULL) goto err;` -/
def need (x : Nat) : Stm := .ifnull x .goto .skip
/-- `if (x == NULL) return …;` -/
def needRet (x : Nat) : Stm := .ifnull x .ret .skip

/-! ## `gost_ec_sign.c` -/

/-- `fill_GOST_EC_params`, `/repo/gost_ec_sign.c` lines 90-176. Variables: 0 `grp`, 1 `P`, 2 `ctx`. Failure 1: a step between the making of
the group and its entry in the table of parameter sets. The group goes to that table (`params->group = grp`). -/
def fill_GOST_EC_params : Stm := prog [
  failsRet 0,
  .block (prog [
    .choice 0 (prog [fails 0, .ret]) .skip,
    .alloc 0 2, needRet 2, .use 2, fails 0, fails 0,
    .use 2, .alloc 0 0, need 0,
    .use 0, .alloc 1 1, need 1,
    .use 0, .use 1, .use 2, fails 1,
    .use 0, .use 1, fails 1,
    .use 0, .give 0,
    .use 0, fails 0]),
  .free 1, .free 2]

/-- `gost_ec_sign`, `/repo/gost_ec_sign.c` lines 182-321. Variables: 0 `ctx`, 1 `md`, 2 `newsig`, 3 `C`, 4 `new_s`, 5 `new_r`; flag 0:
`ret != NULL`. Failure 1: a copy of `r` or `s` cannot be allocated. `ECDSA_SIG_set0` takes the copies; the signature goes to the caller.
The assertions, which end the process, are left out. -/
def gost_ec_sign : Stm :=
  let inner := prog [fails 0, .use 3, .use 0, fails 0, .use 0, fails 0, .use 3, fails 0, fails 0]
  let outer := prog [inner, .loop inner, .use 0, fails 0, .use 0, fails 0]
  prog [
    .alloc 0 0, needRet 0, .use 0,
    .alloc 0 1, .alloc 0 2,
    .block (prog [
      need 2, need 1,
      fails 0,
      .use 0, fails 0,
      fails 0,
      .use 0, .use 1, fails 0,
      .use 0, .alloc 0 3, fails 0, need 3,
      outer, .loop outer,
      .alloc 1 4, .alloc 1 5, need 4, need 5,
      .use 2, .give 5, .give 4,
      .set 0 true, .give 2]),
    .use 0, .free 0,
    .ifnull 3 .skip (.free 3),
    .ifnull 1 .skip (.free 1),
    .ifset 0 .skip (.ifnull 2 .skip (.free 2))]

/-- `gost_ec_verify`, `/repo/gost_ec_sign.c` lines 327-446. Variables: 0 `ctx`, 1 `md`, 2 `C`. -/
def gost_ec_verify : Stm := prog [
  .alloc 0 0, needRet 0, .use 0,
  .block (prog [
    fails 0, fails 0, fails 0,
    .alloc 0 1, need 1, .use 1, .use 0, fails 0,
    fails 0,
    .use 0, fails 0,
    .alloc 0 2, need 2,
    .use 2, .use 0, fails 0,
    .use 2, .use 0, fails 0,
    fails 0]),
  .ifnull 2 .skip (.free 2),
  .use 0, .free 0,
  .ifnull 1 .skip (.free 1)]

/-- `gost_ec_compute_public`, `/repo/gost_ec_sign.c` lines 453-496. Variables: 0 `pub_key`, 1 `ctx`. -/
def gost_ec_compute_public : Stm := prog [
  failsRet 0,
  .alloc 0 1, needRet 1, .use 1,
  .block (prog [
    fails 0,
    .alloc 0 0, need 0,
    .use 0, .use 1, fails 0,
    .use 0, fails 0]),
  .ifnull 0 .skip (.free 0),
  .use 1, .free 1]

/-- `gost_ec_keygen`, `/repo/gost_ec_sign.c` lines 595-644, up to the call of `gost_ec_compute_public`. Variables: 0 `order`, 1 `d`. -/
def gost_ec_keygen : Stm :=
  let draw := prog [.use 1, .use 0, fails 0]
  prog [
    failsRet 0,
    .alloc 0 0, .alloc 0 1,
    .block (prog [
      need 0, need 1,
      .use 0, fails 0,
      draw, .loop draw,
      .use 1, fails 0]),
    .ifnull 1 .skip (.free 1),
    .ifnull 0 .skip (.free 0)]

/-! ## `gost_ec_keyx.c` -/

/-- `VKO_compute_key`, `/repo/gost_ec_keyx.c` lines 27-126. Variables: 0 `databuf`, 1 `pnt`, 2 `ctx`, 3 `mdctx`. -/
def VKO_compute_key : Stm := prog [
  .alloc 0 2, needRet 2, .use 2,
  .block (prog [
    fails 0,
    .use 2, fails 0, .alloc 0 1, need 1, fails 0, .use 2, fails 0,
    .use 1, .use 2, fails 0,
    .use 1, .use 2, fails 0,
    .alloc 0 0, need 0,
    .use 0, fails 0,
    .alloc 0 3, need 3,
    .use 3, .use 0, fails 0]),
  .use 2, .free 2, .free 1, .free 3, .free 0]

/-- `EVP_PKEY_assign(sec, type, EC_KEY_new())` in a condition that jumps to the clean-up when it is 0: the new key `ec` belongs to `sec`
only if `sec` is not NULL and its type could be set (failure `n`). The result is 0 as well if `ec` is NULL. -/
def assignNew (n m sec ec : Nat) : Stm := prog [.alloc m ec, need sec, fails n, .give ec, need ec]

/-- `pkey_GOST_ECcp_encrypt`, `/repo/gost_ec_keyx.c` lines 277-407. Variables: 0 `sec_key`, 1 `gkt`, 2 the new `EC_KEY`; flags: 0
`key_is_ephemeral`, 1 `out != NULL`. Failures: 1 the key object cannot be allocated or typed, 2 the result cannot be encoded or does not fit
into the caller's buffer. -/
def pkey_GOST_ECcp_encrypt : Stm := prog [
  .choice 0 (.set 1 true) .skip,
  .set 0 true,
  failsRet 0,
  .block (prog [
    fails 0,
    .choice 0
      (prog [.borrow 0, .set 0 false, .use 0, fails 0])
      (prog [.set 0 true,
        .ifset 1 (prog [.alloc 1 0, assignNew 1 0 0 2, .use 0, fails 0, .use 0, fails 0]) .skip]),
    .ifset 1 (prog [.use 0, fails 0]) .skip,
    .alloc 0 1, need 1,
    .use 1, fails 0, .use 1, fails 0, .use 1, fails 0,
    .ifset 0 (prog [.ifset 1 (.use 0) .skip, .use 1, fails 0]) .skip,
    .use 1,
    .ifset 0 (.free 0) .skip,
    .ifset 0 .skip (fails 0),
    .use 1, fails 2,
    .ifset 1 (prog [fails 2, .use 1]) .skip,
    .free 1, .ret]),
  .ifset 0 (.free 0) .skip,
  .free 1]

/-- `pkey_gost2018_encrypt`, `/repo/gost_ec_keyx.c` lines 413-551. Variables: 0 `exp_buf`, 1 `sec_key`, 2 `pst`, 3 the new `EC_KEY`,
4 `pst->ukm`; flag 0 `key_is_ephemeral`. Failure 1: the ephemeral key pair cannot be made although its `EVP_PKEY` could. -/
def pkey_gost2018_encrypt : Stm := prog [
  failsRet 0,
  .alloc 0 0, needRet 0,
  .block (prog [
    .choice 0
      (.borrow 1)
      (prog [.alloc 0 1, need 1, assignNew 1 1 1 3, .use 1, fails 1, .use 1, fails 1, .set 0 true]),
    fails 0,
    .use 1, fails 0,
    .use 0, fails 0,
    .alloc 0 2, need 2, .use 2,
    .alloc 0 4, .give 4, need 4,
    .use 4, fails 0, .use 0, .use 2, fails 0,
    .use 1, .use 2, fails 0,
    .use 2, fails 0, fails 0, .use 2]),
  .ifset 0 (.free 1) .skip,
  .free 2, .free 0]

/-- `pkey_GOST_ECcp_decrypt`, `/repo/gost_ec_keyx.c` lines 577-658. Variables: 0 `gkt`, 1 `eph_key`. `EVP_PKEY_derive_set_peer` takes its
own reference. -/
def pkey_GOST_ECcp_decrypt : Stm := prog [
  .alloc 0 0, needRet 0, .use 0,
  .block (prog [
    .alloc 0 1,
    .ifnull 1 (fails 0) (prog [.use 1, fails 0]),
    fails 0,
    .use 0, fails 0,
    .use 0, fails 0, fails 0]),
  .free 1, .free 0]

/-- `pkey_gost2018_decrypt`, `/repo/gost_ec_keyx.c` lines 664-759. Variables: 0 `pst`, 1 `eph_key`. -/
def pkey_gost2018_decrypt : Stm := prog [
  .block (prog [
    fails 0,
    failsRet 0,
    .alloc 0 0, needRet 0, .use 0,
    .alloc 0 1, need 1,
    .use 0, fails 0,
    .use 1, fails 0,
    .use 0, fails 0]),
  .free 1, .free 0]

/-! ## `gost_keyexpimp.c` -/

/-- `gost_kexp15`, `/repo/gost_keyexpimp.c` lines 34-109. Variables: 0 `mac`, 1 `ciph`. -/
def gost_kexp15 : Stm := prog [
  .block (prog [
    fails 0, fails 0,
    .alloc 0 0, need 0, .use 0, fails 0,
    .alloc 0 1, need 1, .use 1, fails 0]),
  .free 0, .free 1]

/-- `gost_kimp15`, `/repo/gost_keyexpimp.c` lines 115-199. Variables: 0 `mac`, 1 `ciph`. -/
def gost_kimp15 : Stm := prog [
  .block (prog [
    fails 0, fails 0, fails 0,
    .alloc 0 1, need 1, .use 1, fails 0,
    .alloc 0 0, need 0, .use 0, fails 0,
    fails 0]),
  .free 0, .free 1]

/-- `gost_kdftree2012_256`, `/repo/gost_keyexpimp.c` lines 201-259. Variable 0 `ctx`. Failure 1: the length asked for is 0 or no multiple of
32. -/
def gost_kdftree2012_256 : Stm := prog [
  .alloc 0 0, needRet 0,
  failsRet 1,
  .loop (prog [.use 0, .choice 0 (prog [.free 0, .ret]) .skip, .use 0]),
  .free 0]

/-! ## `gost_ameth.c` -/

/-- `encode_gost_algor_params`, `/repo/gost_ameth.c` lines 56-121. Variables: 0 `params`, 1 `gkp`; flag 0 `result`. -/
def encode_gost_algor_params : Stm := prog [
  .alloc 0 0, .alloc 0 1,
  .block (prog [
    need 0, need 1,
    .use 1, fails 0,
    .use 1, .use 0, fails 0,
    .use 0, .set 0 true]),
  .ifnull 1 .skip (.free 1),
  .ifset 0 .skip (prog [.ifnull 0 .skip (.free 0), .ret]),
  .give 0]

/-- `gost_decode_nid_params`, `/repo/gost_ameth.c` lines 123-143. Variable 0 `key_ptr`. -/
def gost_decode_nid_params : Stm := prog [
  failsRet 0,
  .choice 0
    (.borrow 0)
    (prog [.alloc 0 0, .ifnull 0 (prog [.free 0, .ret]) .skip, .choice 0 (prog [.free 0, .ret]) .skip, .give 0]),
  .use 0]

/-- `decode_gost_algor_params`, `/repo/gost_ameth.c` lines 149-186. Variable 0 `gkp`. -/
def decode_gost_algor_params : Stm := prog [
  failsRet 0, failsRet 0,
  .alloc 0 0, needRet 0, .use 0, .free 0,
  failsRet 0]

/-- `gost_set_priv_key`, `/repo/gost_ameth.c` lines 188-211. Variable 0 `ec`. Failure 1: the `EC_KEY` cannot be allocated or assigned. -/
def gost_set_priv_key : Stm := prog [
  failsRet 0,
  .choice 0
    (.borrow 0)
    (prog [.alloc 1 0, .choice 1 .skip (.give 0)]),
  .use 0, failsRet 0,
  .use 0]

/-- `gost_cms_set_kari_shared_info`, `/repo/gost_ameth.c` lines 237-330. Variables: 0 `peer_key`, 1 `tmp`, 2 the originator's key bytes and
algorithm, which belong to the `CMS_RecipientInfo`; flags: 0 `ret`, 1 `tmp` holds the objects of 2. `X509_PUBKEY_set0_param` makes `tmp`
their owner, so that freeing `tmp` frees them. "Failure" 3: the message carries the originator's public key. -/
def gost_cms_set_kari_shared_info : Stm := prog [
  .block (prog [
    fails 0, fails 0, fails 0, fails 0, fails 0,
    .choice 3
      (prog [.alloc 0 0, .alloc 0 1, need 0, need 1,
        .borrow 2, .use 1, fails 0, .set 1 true,
        .use 0, .use 1, fails 0,
        .use 0, fails 0])
      .skip,
    fails 0, fails 0,
    .set 0 true]),
  .free 0,
  .ifset 0 .skip (prog [.free 1, .ifset 1 (.free 2) .skip])]

/-- `gost_encode_cms_params`, `/repo/gost_ameth.c` lines 380-411. Variables: 0 `params`, 1 `gkp`; flag 0 `ret != NULL`. -/
def gost_encode_cms_params : Stm := prog [
  .alloc 0 0, .alloc 0 1,
  .block (prog [
    need 0, need 1,
    .use 1, .use 0, fails 0,
    .use 0, .set 0 true]),
  .free 1,
  .ifset 0 (.give 0) (.free 0)]

/-- `x = BN_lebin2bn(…, BN_secure_new())` and `ASN1_INTEGER_to_BN(…, BN_secure_new())`: if the secure BIGNUM cannot be allocated the library
allocates a plain one (and frees it on failure); if it can, and the conversion fails (failure `n`), nobody holds it any more. -/
def toSecureBN (n x : Nat) : Stm := prog [.alloc 0 x, .ifnull x (.alloc 0 x) (.choice n (.null x) .skip)]

/-- `unmask_priv_key`, `/repo/gost_ameth.c` lines 543-580. Variables: 0 `pknum_masked`, 1 `q`, 2 `mask`, 3 `ctx`. Failure 1: a conversion to
a BIGNUM, or an allocation inside the loop, fails. -/
def unmask_priv_key : Stm := prog [
  toSecureBN 1 0, needRet 0,
  .block (prog [
    .choice 0 (prog [
      .alloc 0 1,
      .ifnull 1 (prog [.free 0, .null 0, .goto]) (.choice 0 (prog [.free 0, .null 0, .goto]) .skip),
      .loop (prog [.alloc 1 2, .ifnull 2 (.alloc 1 2) (.choice 1 (.null 2) .skip),
        .alloc 1 3, .use 0, .use 2, .use 3, .free 3, .free 2])])
      .skip]),
  .ifnull 1 .skip (.free 1),
  .give 0]

/-- `priv_decode_gost`, `/repo/gost_ameth.c` lines 582-665. Variables: 0 `s`, 1 `pk_num`, 2 `priv_key`, 3 `mgk`. Failure 1: the conversion
to a BIGNUM fails. -/
def priv_decode_gost : Stm := prog [
  failsRet 0, failsRet 0, failsRet 0,
  .choice 0
    (.alloc 0 1)
    (.choice 0
      (prog [.alloc 0 0,
        .ifnull 0 (prog [.free 0, .ret]) (.choice 0 (prog [.free 0, .ret]) .skip),
        .use 0, toSecureBN 1 1, .free 0])
      (.choice 0
        (prog [.alloc 0 2, needRet 2, .use 2, toSecureBN 1 1, .free 2])
        (.choice 0
          (prog [.alloc 0 3, needRet 3, .use 3,
            .choice 0 (prog [.free 3, .ret]) .skip,
            .alloc 0 1, .free 3])
          .ret))),
  needRet 1,
  .use 1, .free 1]

/-- `priv_encode_gost`, `/repo/gost_ameth.c` lines 668-723. Variables: 0 `params`, 1 `buf`, 2 `octet`, 3 `priv_buf`. Failure 1:
`PKCS8_pkey_set0` fails, and then takes nothing. -/
def priv_encode_gost : Stm := prog [
  failsRet 0,
  .alloc 0 1, needRet 1,
  .use 1, .choice 0 (prog [.free 1, .ret]) .skip,
  .alloc 0 0, .ifnull 0 (prog [.free 1, .ret]) .skip,
  .use 1,
  .choice 0
    (prog [.alloc 0 2,
      .ifnull 2 (prog [.free 2, .free 0, .free 1, .ret]) (prog [.use 2, .choice 0 (prog [.free 2, .free 0, .free 1, .ret]) .skip]),
      .use 2, .alloc 0 3, .free 2, .free 1,
      failsRet 1, .give 0, .give 3, .ret])
    .skip,
  failsRet 1, .give 0, .give 1]

/-- `print_gost_ec_pub`, `/repo/gost_ameth.c` lines 745-790. Variable 0 `ctx`. -/
def print_gost_ec_pub : Stm := prog [
  .alloc 0 0, needRet 0, .use 0,
  .block (prog [fails 0, .use 0, fails 0, fails 0, fails 0, fails 0]),
  .use 0, .free 0]

/-- `param_copy_gost_ec`, `/repo/gost_ameth.c` lines 847-881. Variable 0 `eto`. -/
def param_copy_gost_ec : Stm := prog [
  failsRet 0, failsRet 0,
  .choice 0
    (.borrow 0)
    (prog [.alloc 0 0, needRet 0, .choice 0 (prog [.free 0, .ret]) .skip, .give 0]),
  .use 0, failsRet 0,
  .use 0]

/-- `pub_decode_gost_ec`, `/repo/gost_ameth.c` lines 903-962. Variables: 0 `pub_key`, 1 `X`, 2 `Y`, 3 `databuf`, 4 `octet`. Failure 1:
`EC_POINT_new` fails. -/
def pub_decode_gost_ec : Stm := prog [
  .block (prog [
    fails 0, fails 0,
    .alloc 0 4, need 4, .use 4,
    .alloc 0 3, need 3, .use 3, .use 4,
    .use 3, .alloc 0 2, .alloc 0 1, need 1, need 2,
    .alloc 1 0, .use 0, .use 1, .use 2, fails 0,
    .use 0]),
  .free 0, .free 1, .free 2, .free 3, .free 4]

/-- `pub_encode_gost_ec`, `/repo/gost_ameth.c` lines 964-1041. Variables: 0 `params`, 1 `order`, 2 `X`, 3 `Y`, 4 `databuf`, 5 `octet`,
6 `buf`; flag 0: `ret >= 0`. Failure 1: anything after the parameters were encoded. -/
def pub_encode_gost_ec : Stm := prog [
  .alloc 0 0,
  .alloc 1 1,
  .block (prog [
    need 1, .use 1, fails 1, fails 1, fails 1,
    .alloc 1 2, .alloc 1 3, need 2, need 3,
    .use 2, .use 3, fails 1,
    .use 1, .alloc 1 4, need 4,
    .use 2, .use 3, .use 4,
    .alloc 1 5, need 5,
    .use 5, .use 4, fails 1,
    .use 5, .alloc 1 6, .ifnull 6 .skip (.set 0 true)]),
  .free 5,
  .ifnull 2 .skip (.free 2),
  .ifnull 3 .skip (.free 3),
  .ifnull 1 .skip (.free 1),
  .ifnull 4 .skip (.free 4),
  .ifset 0 .skip .ret,
  failsRet 1,
  .give 0, .give 6]

/-! ## `gost_pmeth.c` -/

/-- `pkey_gost_init`, `/repo/gost_pmeth.c` lines 30-60. Variable 0 `data`. -/
def pkey_gost_init : Stm := prog [
  .alloc 0 0, needRet 0, .use 0,
  .choice 0 (prog [.choice 0 (.use 0) (prog [.free 0, .ret])]) .skip,
  .give 0]

/-- `pkey_gost_mac_init`, `pkey_gost_omac_init`, `/repo/gost_pmeth.c` lines 572-616. Variable 0 `data`. -/
def pkey_gost_mac_init : Stm := prog [
  .alloc 0 0, needRet 0, .use 0, .choice 0 (.use 0) .skip, .give 0]

/-- `pkey_gost_ec_ctrl_str_common`, the `ukmhex` branch, `/repo/gost_pmeth.c` lines 202-220. Variable 0 `tmp`. -/
def ctrl_str_ukm : Stm := prog [
  .alloc 0 0, needRet 0,
  .choice 0 (prog [.free 0, .ret]) .skip,
  .use 0, .free 0]

/-- `pkey_gost_mac_ctrl_str` and `pkey_gost_omac_ctrl_str`, the `hexkey` branch, `/repo/gost_pmeth.c` lines 740-755 and 883-898. Variable 0
`keybuf`. -/
def ctrl_str_hexkey : Stm := prog [
  .alloc 0 0,
  .ifnull 0 (prog [.free 0, .ret]) (.choice 0 (prog [.free 0, .ret]) .skip),
  .use 0, .free 0]

/-- `pkey_gost_mac_ctrl_str`, the `paramset` branch, `/repo/gost_pmeth.c` lines 765-780. Variable 0 `obj`. -/
def ctrl_str_paramset : Stm := prog [
  .alloc 0 0, needRet 0, .use 0, .free 0, failsRet 0]

/-- `pkey_gost2001_paramgen`, `/repo/gost_pmeth.c` lines 373-390. Variable 0 `ec`; `fill_GOST_EC_params` refuses NULL. -/
def pkey_gost2001_paramgen : Stm := prog [
  failsRet 0,
  .alloc 0 0,
  .ifnull 0 (prog [.free 0, .ret]) .skip,
  .use 0, .choice 0 (prog [.free 0, .ret]) .skip,
  .choice 0 (prog [.free 0, .ret]) .skip,
  .give 0]

/-- `pkey_gost2012_paramgen`, `/repo/gost_pmeth.c` lines 392-440. Variable 0 `ec`; flag 0 `result`. -/
def pkey_gost2012_paramgen : Stm := prog [
  failsRet 0,
  .alloc 0 0,
  .ifnull 0 (prog [.free 0, .ret]) .skip,
  .use 0, .choice 0 (prog [.free 0, .ret]) .skip,
  .choice 0 .skip (.choice 0 .skip (prog [.give 0, .set 0 true])),
  .ifset 0 .skip (.free 0)]

/-- `pkey_gost_ec_cp_sign` with `pack_sign_cp`, `/repo/gost_pmeth.c` lines 467-513. Variable 0 `unpacked_sig`. -/
def pkey_gost_ec_cp_sign : Stm := prog [
  failsRet 0, failsRet 0, failsRet 0, failsRet 0,
  .alloc 0 0, needRet 0,
  .use 0, .free 0]

/-- `unpack_cp_signature`, `/repo/gost_pmeth.c` lines 517-533. Variables: 0 `sig`, 1 `r`, 2 `s`. Failure 1: `r` or `s` cannot be allocated;
`ECDSA_SIG_set0` takes nothing if one of them is NULL. -/
def unpack_cp_signature : Stm := prog [
  .alloc 0 0, needRet 0,
  .alloc 1 2, .alloc 1 1,
  .use 0, .ifnull 1 .skip (.ifnull 2 .skip (prog [.give 1, .give 2])),
  .give 0]

/-- `pkey_gost_ec_cp_verify`, `/repo/gost_pmeth.c` lines 535-556. Variable 0 `s`. -/
def pkey_gost_ec_cp_verify : Stm := prog [
  .choice 0 (.alloc 0 0) (.null 0), needRet 0,
  .choice 0 (.use 0) .skip,
  .free 0]

/-- `pkey_gost_mac_keygen_base`, `/repo/gost_pmeth.c` lines 923-940. Variable 0 `keydata`. Failure 1: `EVP_PKEY_assign` fails. -/
def pkey_gost_mac_keygen_base : Stm := prog [
  failsRet 0,
  .alloc 0 0, needRet 0, .use 0,
  .choice 1 .skip (.give 0)]

/-! ## `gost_crypt.c` -/

/-- `gost89_set_asn1_parameters`, `/repo/gost_crypt.c` lines 1369-1411. Variables: 0 `gcp`, 1 `buf`, 2 `os`. Failure 1: the octet string
cannot be filled. -/
def gost89_set_asn1_parameters : Stm := prog [
  .alloc 0 0, needRet 0,
  .use 0, .choice 0 (prog [.free 0, .ret]) .skip,
  .use 0, .alloc 0 1, .ifnull 1 (prog [.free 0, .ret]) .skip,
  .use 0, .use 1, .free 0,
  .alloc 0 2,
  .ifnull 2 (prog [.free 1, .ret]) (.choice 1 (prog [.free 1, .ret]) .skip),
  .use 2, .free 1,
  .give 2]

/-- `gost89_get_asn1_parameters`, `/repo/gost_crypt.c` lines 1414-1457. Variable 0 `gcp`. Failure 1: the parameters cannot be decoded. -/
def gost89_get_asn1_parameters : Stm := prog [
  failsRet 0,
  .alloc 1 0,
  .use 0, .choice 0 (prog [.free 0, .ret]) .skip,
  .use 0, .choice 0 (prog [.free 0, .ret]) .skip,
  .choice 0 (prog [.free 0, .ret]) .skip,
  .use 0, .free 0]

/-! ## Running a statement along a list of decisions -/

/-- Zero or more rounds: each round starts with the decision to go on. -/
def runLoop (f : St → List Bool → Option (St × Out × List Bool)) : Nat → St → List Bool → Option (St × Out × List Bool)
  | 0, _, _ => none
  | _ + 1, _, [] => none
  | _ + 1, s, false :: cs => some (s, .fall, cs)
  | n + 1, s, true :: cs => match f s cs with
    | none => none
    | some (t, .fall, cs') => runLoop f n t cs'
    | some r => some r

/-- The execution in which the failures happen as the list says (`true`: the allocation succeeds; the first branch is taken; another
round is made). -/
def run : Stm → St → List Bool → Option (St × Out × List Bool)
  | .skip, s, cs => some (s, .fall, cs)
  | .alloc _ x, s, c :: cs => some (if c then s.make x .alloc else s.setVar x none, .fall, cs)
  | .alloc _ _, _, [] => none
  | .borrow x, s, cs => some (s.make x .lent, .fall, cs)
  | .null x, s, cs => some (s.setVar x none, .fall, cs)
  | .free x, s, cs => match s.env x with
    | none => some (s, .fall, cs)
    | some p => some (s.log (.free p), .fall, cs)
  | .use x, s, cs => match s.env x with
    | none => some (s.log .nullUse, .fall, cs)
    | some p => some (s.log (.use p), .fall, cs)
  | .give x, s, cs => match s.env x with
    | none => some (s, .fall, cs)
    | some p => some (s.log (.give p), .fall, cs)
  | .set f b, s, cs => some ({ s with flag := fun g => if g = f then b else s.flag g }, .fall, cs)
  | .seq a b, s, cs => match run a s cs with
    | none => none
    | some (t, .fall, cs') => run b t cs'
    | some r => some r
  | .choice _ _ _, _, [] => none
  | .choice _ a b, s, c :: cs => if c then run a s cs else run b s cs
  | .ifnull x a b, s, cs => if s.env x = none then run a s cs else run b s cs
  | .ifset f a b, s, cs => if s.flag f then run a s cs else run b s cs
  | .loop a, s, cs => runLoop (run a) (cs.length + 1) s cs
  | .goto, s, cs => some (s, .jump, cs)
  | .ret, s, cs => some (s, .done, cs)
  | .block a, s, cs => match run a s cs with
    | some (t, .jump, cs') => some (t, .fall, cs')
    | r => r

end Gost.Res
