import Verif.Model.TlsRecord
import Verif.Props.Tls
import Verif.Props.OmacHeap
import Verif.Props.Imit
import Verif.Props.GostModes
import Verif.Lemmas.OmacAcpkm
import Verif.Lemmas.KeyWrap

/-!
# C88: TLS records

A connection protected with the engine: whatever records are sent, the fragments are those of the standards (RFC 9189 for the suites with
OMAC), and the receiver accepts a sequence of records if and only if it is the one the standards assign to some contents, which it returns.
-/

namespace Gost.Spec

/-- A record: its type and its content, or its type and its protected fragment. -/
abbrev Rec := Byte × Bytes

/-- What the MAC of record number `i` covers: number, type, version, length, content. -/
def macData (i : Nat) (r : Rec) : Bytes := beBytes 8 i ++ [r.1, 3, 3] ++ beBytes 2 r.2.length ++ r.2

/-- The records on the wire when the fragment of a record is a function `F` of the records before it and of the record. -/
def protect (F : List Rec → Rec → Bytes) : List Rec → List Rec → List Rec
  | _, [] => []
  | sent, r :: rs => (r.1, F sent r) :: protect F (sent ++ [r]) rs

/-- RFC 9189, 4.1: record number `i` is `CTR(K_i, IV + i, content || OMAC(K'_i, ...))`, both keys being the `TLSTREE` keys of `i`. -/
def omacFragment (hmac : Bytes → Bytes → Bytes) (cmac E : OmacCipher → Bytes → Bytes → Bytes) (n : OmacCipher) (encKey macKey iv : Bytes)
    (sent : List Rec) (r : Rec) : Bytes :=
  let i := sent.length % 2^64
  ctrCrypt E n (tlstree hmac n encKey i) (beBytes (n.block / 2) (beNat iv + i)) (r.2 ++ cmac n (tlstree hmac n macKey i) (macData i r))

/-- Byte number `off + i` of the keystream is added to byte `i` of the data. -/
def xorFrom (bl : Nat) (gamma : Nat → List (BitVec 8)) (off : Nat) (data : List (BitVec 8)) : List (BitVec 8) :=
  data.mapIdx fun i x => x ^^^ (gamma ((off + i) / bl)).getD ((off + i) % bl) 0

/-- The authenticated data of several records, in order. -/
def macStream (rs : List Rec) : Bytes := (rs.mapIdx fun i r => macData (i % 2^64) r).flatten

/-- The suites with GOST 28147-89: one keystream and one MAC for the whole connection; the MAC has four bytes. -/
def streamFragment (mac : Bytes → Bytes) (gamma : Nat → Bytes) (sent : List Rec) (r : Rec) : Bytes :=
  xorFrom 8 gamma (sent.map fun s => s.2.length + 4).sum (r.2 ++ mac (macStream (sent ++ [r])))

end Gost.Spec

namespace Gost
open Spec

variable {μ κ : Type}

/-- The sequence number after the records `h`. -/
def seqOf (h : List Rec) : Bytes := beBytes 8 (h.length % 2^64)

theorem seqOf_length (h : List Rec) : (seqOf h).length = 8 := by simp [seqOf]

theorem beNat_seqOf (h : List Rec) : beNat (seqOf h) = h.length % 2^64 := by
  unfold seqOf
  rw [beNat_beBytes]
  omega

theorem seqNext_seqOf (h : List Rec) (r : Rec) : seqNext (seqOf h) = seqOf (h ++ [r]) := by
  unfold seqNext
  rw [beNat_seqOf]
  unfold seqOf
  rw [List.length_append, List.length_singleton]
  congr 1
  omega

theorem recordNo_recv (h : List Rec) : recordNo (seqOf h) 0 = h.length % 2^64 := by
  unfold recordNo
  rw [if_neg (by decide), beNat_seqOf]

theorem recordNo_send (h : List Rec) (r : Rec) : recordNo (seqOf (h ++ [r])) 1 = h.length % 2^64 := by
  unfold recordNo
  rw [if_pos rfl, beNat_seqOf, List.length_append, List.length_singleton]
  omega

/-- What a suite must do. -/
structure Works (S : TlsSuite μ κ) (Mac : List Rec → Rec → Bytes) (Crypt : List Rec → Bytes → Bytes) (MI : List Rec → μ → Prop)
    (CI : List Rec → κ → Prop) : Prop where
  mac : ∀ h r m, MI h m → ∃ m', S.mac m (seqOf h) (tlsHeader (seqOf h) r.1 r.2.length) r.2 = some (m', Mac h r) ∧ MI (h ++ [r]) m'
  size : ∀ h r, (Mac h r).length = S.macSize
  send : ∀ h c x r, CI h c → x.length = r.2.length + S.macSize → ∃ c', S.crypt c 1 (seqOf (h ++ [r])) x = some (c', Crypt h x) ∧ CI (h ++ [r]) c'
  recv : ∀ h c x, CI h c → ∃ c', S.crypt c 0 (seqOf h) x = some (c', Crypt h x) ∧
    ∀ r : Rec, x.length = r.2.length + S.macSize → CI (h ++ [r]) c'
  twice : ∀ h x, Crypt h (Crypt h x) = x
  len : ∀ h x, (Crypt h x).length = x.length

section generic

variable {S : TlsSuite μ κ} {Mac : List Rec → Rec → Bytes} {Crypt : List Rec → Bytes → Bytes} {MI : List Rec → μ → Prop}
  {CI : List Rec → κ → Prop}

/-- The fragment of a record. -/
def frag (Mac : List Rec → Rec → Bytes) (Crypt : List Rec → Bytes → Bytes) (h : List Rec) (r : Rec) : Bytes := Crypt h (r.2 ++ Mac h r)

theorem seal_one (W : Works S Mac Crypt MI CI) (h : List Rec) (m : μ) (c : κ) (hm : MI h m) (hc : CI h c) (r : Rec) :
    ∃ m' c', tlsSeal S ⟨m, c, seqOf h⟩ r = some (⟨m', c', seqOf (h ++ [r])⟩, r.1, frag Mac Crypt h r) ∧ MI (h ++ [r]) m' ∧ CI (h ++ [r]) c' := by
  obtain ⟨m', e1, i1⟩ := W.mac h r m hm
  obtain ⟨c', e2, i2⟩ := W.send h c (r.2 ++ Mac h r) r hc (by rw [List.length_append, W.size])
  refine ⟨m', c', ?_, i1, i2⟩
  unfold tlsSeal
  dsimp only
  rw [e1, Option.bind_some, seqNext_seqOf h r]
  dsimp only
  rw [e2]
  rfl

theorem seal_all (W : Works S Mac Crypt MI CI) (rs : List Rec) : ∀ (h : List Rec) (m : μ) (c : κ), MI h m → CI h c →
    ∃ m' c', tlsAll (tlsSeal S) ⟨m, c, seqOf h⟩ rs = some (⟨m', c', seqOf (h ++ rs)⟩, protect (frag Mac Crypt) h rs) ∧ MI (h ++ rs) m' := by
  induction rs with
  | nil =>
    intro h m c hm hc
    exact ⟨m, c, by rw [List.append_nil]; rfl, by rw [List.append_nil]; exact hm⟩
  | cons r rs ih =>
    intro h m c hm hc
    obtain ⟨m1, c1, e1, i1, i2⟩ := seal_one W h m c hm hc r
    obtain ⟨m2, c2, e2, i3⟩ := ih (h ++ [r]) m1 c1 i1 i2
    rw [List.append_assoc] at e2 i3
    refine ⟨m2, c2, ?_, i3⟩
    unfold tlsAll
    rw [e1, Option.bind_some]
    dsimp only
    rw [e2]
    rfl

theorem open_one (W : Works S Mac Crypt MI CI) (h : List Rec) (m : μ) (c : κ) (hm : MI h m) (hc : CI h c) (t : Byte) (f : Bytes) :
    (tlsOpen S ⟨m, c, seqOf h⟩ (t, f) = none ∧ ∀ p, f ≠ frag Mac Crypt h (t, p)) ∨
    ∃ m' c' p, tlsOpen S ⟨m, c, seqOf h⟩ (t, f) = some (⟨m', c', seqOf (h ++ [(t, p)])⟩, t, p) ∧ f = frag Mac Crypt h (t, p) ∧
      MI (h ++ [(t, p)]) m' ∧ CI (h ++ [(t, p)]) c' := by
  obtain ⟨c', e2, i2⟩ := W.recv h c f hc
  have hstep : tlsOpen S ⟨m, c, seqOf h⟩ (t, f) = if (Crypt h f).length < S.macSize then none
      else (S.mac m (seqOf h) (tlsHeader (seqOf h) t ((Crypt h f).take ((Crypt h f).length - S.macSize)).length)
          ((Crypt h f).take ((Crypt h f).length - S.macSize))).bind fun q =>
        if (Crypt h f).drop ((Crypt h f).length - S.macSize) = q.2 then
          some (⟨q.1, c', seqNext (seqOf h)⟩, t, (Crypt h f).take ((Crypt h f).length - S.macSize)) else none := by
    unfold tlsOpen
    dsimp only
    rw [e2]
    rfl
  have hfrag : ∀ p, f = frag Mac Crypt h (t, p) → Crypt h f = p ++ Mac h (t, p) := by
    intro p hp
    rw [hp]
    exact W.twice _ _
  by_cases hl : (Crypt h f).length < S.macSize
  · left
    rw [if_pos hl] at hstep
    refine ⟨hstep, fun p hp => ?_⟩
    have := congrArg List.length (hfrag p hp)
    rw [List.length_append, W.size] at this
    omega
  · rw [if_neg hl] at hstep
    generalize hp : (Crypt h f).take ((Crypt h f).length - S.macSize) = p at hstep
    have hpl : p.length = (Crypt h f).length - S.macSize := by rw [← hp, List.length_take]; omega
    obtain ⟨m', e1, i1⟩ := W.mac h (t, p) m hm
    rw [show S.mac m (seqOf h) (tlsHeader (seqOf h) t p.length) p = some (m', Mac h (t, p)) from e1, Option.bind_some] at hstep
    dsimp only at hstep
    by_cases hd : (Crypt h f).drop ((Crypt h f).length - S.macSize) = Mac h (t, p)
    · right
      rw [if_pos hd, seqNext_seqOf h (t, p)] at hstep
      refine ⟨m', c', p, hstep, ?_, i1, i2 (t, p) (by rw [← W.len h f]; show _ = p.length + _; omega)⟩
      unfold frag
      rw [← hd]
      show f = Crypt h (p ++ _)
      rw [← hp, List.take_append_drop, W.twice]
    · left
      rw [if_neg hd] at hstep
      refine ⟨hstep, fun q hq => hd ?_⟩
      have e := hfrag q hq
      have hql : q.length = (Crypt h f).length - S.macSize := by
        have := congrArg List.length e
        rw [List.length_append, W.size] at this
        omega
      have hpq : p = q := by rw [← hp, ← hql, e, List.take_left' rfl]
      rw [hpq, ← hql, e, List.drop_left' rfl]

theorem open_all (W : Works S Mac Crypt MI CI) (fs : List Rec) : ∀ (h : List Rec) (m : μ) (c : κ), MI h m → CI h c → ∀ rs,
    (tlsAll (tlsOpen S) ⟨m, c, seqOf h⟩ fs).map (·.2) = some rs ↔ fs = protect (frag Mac Crypt) h rs := by
  induction fs with
  | nil =>
    intro h m c hm hc rs
    cases rs with
    | nil => exact ⟨fun _ => rfl, fun _ => rfl⟩
    | cons r rs => exact ⟨fun e => (by cases e), fun e => (by cases e)⟩
  | cons f fs ih =>
    intro h m c hm hc rs
    obtain ⟨t, f⟩ := f
    have hunf : tlsAll (tlsOpen S) ⟨m, c, seqOf h⟩ ((t, f) :: fs) = (tlsOpen S ⟨m, c, seqOf h⟩ (t, f)).bind fun s =>
        (tlsAll (tlsOpen S) s.1 fs).map fun t => (t.1, s.2 :: t.2) := rfl
    rcases open_one W h m c hm hc t f with ⟨e, hn⟩ | ⟨m', c', p, e, hf, i1, i2⟩
    · rw [hunf, e]
      refine ⟨fun x => (by cases x), fun x => ?_⟩
      cases rs with
      | nil => cases x
      | cons r rs =>
        obtain ⟨t', p⟩ := r
        injection x with x1 x2
        injection x1 with x3 x4
        subst x3
        exact absurd x4 (hn p)
    · rw [hunf, e, Option.bind_some]
      dsimp only
      rw [Option.map_map]
      have hi := ih (h ++ [(t, p)]) m' c' i1 i2
      constructor
      · intro x
        cases hr : tlsAll (tlsOpen S) ⟨m', c', seqOf (h ++ [(t, p)])⟩ fs with
        | none => rw [hr] at x; cases x
        | some q =>
          rw [hr] at x
          have hx : (t, p) :: q.2 = rs := by injection x
          have := (hi q.2).1 (by rw [hr]; rfl)
          rw [← hx, this, hf]
          rfl
      · intro x
        cases rs with
        | nil => cases x
        | cons r rs =>
          obtain ⟨t', p'⟩ := r
          injection x with x1 x2
          injection x1 with x3 x4
          subst x3
          have hpp : p' = p := by
            have e1 : Crypt h f = p ++ Mac h (t, p) := by rw [hf]; exact W.twice _ _
            have e2 : Crypt h f = p' ++ Mac h (t, p') := by rw [x4]; exact W.twice _ _
            rw [e1] at e2
            exact (List.append_inj_left' e2 (by rw [W.size, W.size])).symm
          subst hpp
          have h1 := (hi rs).2 x2
          cases hr : tlsAll (tlsOpen S) ⟨m', c', seqOf (h ++ [(t, p')])⟩ fs with
          | none => rw [hr] at h1; cases h1
          | some q =>
            rw [hr] at h1
            have hx : q.2 = rs := by injection h1
            rw [← hx]
            rfl

end generic

/-! ## The MAC of the suites with OMAC -/

/-- The keyed context, by value. -/
def tlsBase (n : OmacCipher) (mk : Bytes) : ValCtx CmacObj OmacF where
  data := some (some ⟨n, mk, []⟩, ⟨n.block, some n, true, mk⟩)
  cleaned := false
  noInit := true

/-- A new context. -/
def tlsNew : ValCtx CmacObj OmacF := ⟨none, false, false⟩

/-- Between the records: the keyed context, and nothing else in memory. -/
def OmacTls (n : OmacCipher) (mk : Bytes) (s : MdState CmacObj OmacF) : Prop :=
  ∃ v, HeapInv (fun a f => f.key_set = true → a ≠ none) s v ∧ MdOwned s ∧ v 0 = tlsBase n mk ∧ ∀ i, i ≠ 0 → v i = tlsNew

theorem valRun_cons {α β : Type} {V : ValMd α β} {s : Nat → ValCtx α β} {o : MdOp} {os : List MdOp} {s1 s2 : Nat → ValCtx α β} {a : Int × Bytes}
    {b : List (Int × Bytes)} (h1 : valStep V s o = some (s1, a)) (h2 : valRun V s1 os = some (s2, b)) :
    valRun V s (o :: os) = some (s2, a :: b) := by
  unfold valRun
  rw [h1, Option.bind_some]
  dsimp only
  rw [h2]
  rfl

theorem noLeak_cons {α β : Type} {V : ValMd α β} {s : Nat → ValCtx α β} {o : MdOp} {os : List MdOp} {s1 : Nat → ValCtx α β} {a : Int × Bytes}
    (h1 : valStep V s o = some (s1, a)) (h : ¬ LeakingCall s o) (h2 : NoLeakingCall V s1 os) : NoLeakingCall V s (o :: os) :=
  ⟨h, fun r hr => by rw [h1] at hr; cases hr; exact h2⟩

theorem omac_start (X : Crypto) (n : OmacCipher) (mk : Bytes) (hk : mk.length = 32) : ∃ s, omacKeyed X n mk = some s ∧ OmacTls n mk s := by
  have ht : mk.take 32 = mk := List.take_of_length_le (Nat.le_of_eq hk)
  let s1 : Nat → ValCtx CmacObj OmacF := setCtx valStart 0 ⟨some (none, (omacVal X n).start), false, false⟩
  let s2 : Nat → ValCtx CmacObj OmacF := setCtx s1 0 (tlsBase n mk)
  have e1 : valStep (omacVal X n) valStart (.init 0) = some (s1, 1, []) := rfl
  have e2 : valStep (omacVal X n) s1 (.ctrl 0 (.setKey 32 mk)) = some (s2, 1, []) := by
    have : valStep (omacVal X n) s1 (.ctrl 0 (.setKey 32 mk)) =
      some (setCtx s1 0 ⟨some (some ⟨n, mk.take 32, []⟩, ⟨n.block, some n, true, mk.take 32⟩), false, true⟩, 1, []) := rfl
    rw [this, ht]
    rfl
  obtain ⟨-, h⟩ := run_refines (omac_refines X n) [.init 0, .ctrl 0 (.setKey 32 mk)] (heap_start_inv _)
  obtain ⟨s, e, I, O⟩ := h (s2, [(1, []), (1, [])]) (valRun_cons e1 (valRun_cons e2 rfl))
  refine ⟨s, by unfold omacKeyed; rw [e]; rfl, s2, I, O start_owned (noLeak_cons e1 (fun h => h.elim) (noLeak_cons e2 ?_ trivial)), rfl, ?_⟩
  · rintro ⟨a, f, h⟩
    cases h
  · intro i hi
    show (if i = 0 then _ else if i = 0 then _ else _) = _
    rw [if_neg hi, if_neg hi]
    rfl

/-- The calls for a record. -/
def tlsMacCalls (n : OmacCipher) (seq hdr data : Bytes) : List MdOp :=
  [.copy 0 1, .ctrl 1 (.tlstree seq), .update 1 hdr, .update 1 data, .copy 1 2, .ctrl 2 (.xofLen n.block), .final 2, .reset 2, .reset 1]

/-- A context in the middle of a record. -/
def tlsMid (n : OmacCipher) (mk k d : Bytes) : ValCtx CmacObj OmacF where
  data := some (some ⟨n, k, d⟩, ⟨n.block, some n, true, mk⟩)
  cleaned := false
  noInit := true

theorem step_update (X : Crypto) (n : OmacCipher) (mk k d x : Bytes) (s : Nat → ValCtx CmacObj OmacF) (h : s 1 = tlsMid n mk k d) :
    valStep (omacVal X n) s (.update 1 x) = some (setCtx s 1 (tlsMid n mk k (d ++ x)), 1, []) := by
  unfold valStep
  dsimp only
  by_cases hx : x = []
  · rw [if_pos hx, hx, List.append_nil, ← h]
    have : setCtx s 1 (s 1) = s := by
      funext i
      unfold setCtx
      by_cases hi : i = 1
      · rw [if_pos hi, hi]
      · rw [if_neg hi]
    rw [this]
  · rw [if_neg hx, h]
    rfl

theorem omac_record (X : Crypto) (n : OmacCipher) (mk : Bytes) (s : MdState CmacObj OmacF) (hs : OmacTls n mk s) (seq hdr data : Bytes)
    (hq : seq.length = 8) :
    ∃ s', omacRecord X n s seq hdr data = some (s', X.cmac n (tlstree X.hmac n mk (beNat seq)) (hdr ++ data)) ∧ OmacTls n mk s' := by
  obtain ⟨v, I, O, h0, h1⟩ := hs
  have hk : (tlstree X.hmac n mk (beNat seq)).take 32 = tlstree X.hmac n mk (beNat seq) :=
    List.take_of_length_le (Nat.le_of_eq (tlstree_length _ _ _ _))
  have hT := tlstree_eq X n mk seq hq
  generalize tlstree X.hmac n mk (beNat seq) = k at *
  have hget : ∀ (w : Nat → ValCtx CmacObj OmacF) (i : Nat) (e : ValCtx CmacObj OmacF), setCtx w i e i = e := fun w i e => if_pos rfl
  have hgo : ∀ (w : Nat → ValCtx CmacObj OmacF) (i j : Nat) (e : ValCtx CmacObj OmacF), j ≠ i → setCtx w i e j = w j := fun w i j e h => if_neg h
  let s1 : Nat → ValCtx CmacObj OmacF := setCtx v 1 (v 0)
  let s2 : Nat → ValCtx CmacObj OmacF := setCtx s1 1 (tlsMid n mk k [])
  let s3 : Nat → ValCtx CmacObj OmacF := setCtx s2 1 (tlsMid n mk k hdr)
  let s4 : Nat → ValCtx CmacObj OmacF := setCtx s3 1 (tlsMid n mk k (hdr ++ data))
  let s5 : Nat → ValCtx CmacObj OmacF := setCtx s4 2 (tlsMid n mk k (hdr ++ data))
  let s6 : Nat → ValCtx CmacObj OmacF := setCtx s5 2 (tlsMid n mk k (hdr ++ data))
  let s7 : Nat → ValCtx CmacObj OmacF := setCtx s6 2 ⟨some (none, OmacF.zero), true, true⟩
  let s8 : Nat → ValCtx CmacObj OmacF := setCtx s7 2 tlsNew
  let s9 : Nat → ValCtx CmacObj OmacF := setCtx s8 1 tlsNew
  have e1 : valStep (omacVal X n) v (.copy 0 1) = some (s1, 1, []) := by
    unfold valStep
    dsimp only
    rw [if_neg (by decide)]
    rw [show (v 0).data = (tlsBase n mk).data by rw [h0]]
    rfl
  have g1 : s1 1 = tlsBase n mk := by rw [show s1 1 = v 0 from rfl, h0]
  have e2 : valStep (omacVal X n) s1 (.ctrl 1 (.tlstree seq)) = some (s2, 1, []) := by
    unfold valStep
    dsimp only
    rw [g1]
    show ((omacVal X n).ctrl (some ⟨n, mk, []⟩) ⟨n.block, some n, true, mk⟩ (.tlstree seq)).map _ = _
    have : (omacVal X n).ctrl (some ⟨n, mk, []⟩) ⟨n.block, some n, true, mk⟩ (.tlstree seq) =
        some (some ⟨n, k, []⟩, ⟨n.block, some n, true, mk⟩, 1) := by
      unfold omacVal
      dsimp only
      rw [if_pos rfl, Option.map_some, hT]
      dsimp only
      rw [hk]
    rw [this]
    rfl
  have e3 : valStep (omacVal X n) s2 (.update 1 hdr) = some (s3, 1, []) := step_update X n mk k [] hdr s2 rfl
  have e4 : valStep (omacVal X n) s3 (.update 1 data) = some (s4, 1, []) := step_update X n mk k hdr data s3 rfl
  have e5 : valStep (omacVal X n) s4 (.copy 1 2) = some (s5, 1, []) := rfl
  have e6 : valStep (omacVal X n) s5 (.ctrl 2 (.xofLen n.block)) = some (s6, 1, []) := by cases n <;> rfl
  have e7 : valStep (omacVal X n) s6 (.final 2) = some (s7, 1, X.cmac n k (hdr ++ data)) := by
    have : valStep (omacVal X n) s6 (.final 2) = some (s7, 1, (X.cmac n k (hdr ++ data)).take n.block) := rfl
    rw [this, List.take_of_length_le (Nat.le_of_eq (X.cmac_length _ _ _))]
  have e8 : valStep (omacVal X n) s7 (.reset 2) = some (s8, 1, []) := rfl
  have e9 : valStep (omacVal X n) s8 (.reset 1) = some (s9, 1, []) := rfl
  have hrun := valRun_cons e1 (valRun_cons e2 (valRun_cons e3 (valRun_cons e4 (valRun_cons e5 (valRun_cons e6 (valRun_cons e7 (valRun_cons e8
    (valRun_cons e9 (show valRun (omacVal X n) s9 [] = some (s9, []) from rfl)))))))))
  have v1 : v 1 = tlsNew := h1 1 (by decide)
  have v2 : v 2 = tlsNew := h1 2 (by decide)
  have hnl : NoLeakingCall (omacVal X n) v (tlsMacCalls n seq hdr data) := by
    refine noLeak_cons e1 ?_ (noLeak_cons e2 (fun h => h) (noLeak_cons e3 (fun h => h) (noLeak_cons e4 (fun h => h) (noLeak_cons e5 ?_
      (noLeak_cons e6 (fun h => h) (noLeak_cons e7 (fun h => h) (noLeak_cons e8 ?_ (noLeak_cons e9 ?_ trivial))))))))
    · rintro ⟨-, -, h, -⟩
      rw [v1] at h
      cases h
    · rintro ⟨-, -, h, -⟩
      have : s4 2 = tlsNew := v2
      rw [this] at h
      cases h
    · rintro ⟨-, a, f, h⟩
      cases h
    · rintro ⟨h, -⟩
      cases h
  obtain ⟨-, h⟩ := run_refines (omac_refines X n) (tlsMacCalls n seq hdr data) I
  obtain ⟨s', e, I', O'⟩ := h _ hrun
  refine ⟨s', ?_, s9, I', O' O hnl, h0, ?_⟩
  · unfold omacRecord
    rw [show mdRun (omacMd X n) s [.copy 0 1, .ctrl 1 (.tlstree seq), .update 1 hdr, .update 1 data, .copy 1 2, .ctrl 2 (.xofLen n.block),
      .final 2, .reset 2, .reset 1] = _ from e]
    rfl
  · intro i hi
    by_cases i1 : i = 1
    · rw [i1]; rfl
    · by_cases i2 : i = 2
      · rw [i2]; rfl
      · have : s9 i = v i := by
          show setCtx (setCtx (setCtx (setCtx (setCtx (setCtx (setCtx (setCtx (setCtx v 1 _) 1 _) 1 _) 1 _) 2 _) 2 _) 2 _) 2 _) 1 _ i = v i
          simp only [setCtx, i1, i2, if_false]
        rw [this, h1 i hi]

/-- The memory of the MAC contexts between records: only the keyed context has an object. -/
theorem omacTls_memory {n : OmacCipher} {mk : Bytes} {s : MdState CmacObj OmacF} (h : OmacTls n mk s) (q : Nat) (hq : s.heap.obj q ≠ none) :
    (s.ctx 0).own = some q := by
  obtain ⟨v, I, O, -, h1⟩ := h
  obtain ⟨i, hi⟩ := O q hq
  by_cases h0 : i = 0
  · rw [h0] at hi; exact hi
  · have hd := I.data i
    rw [show (v i).data = none by rw [h1 i h0]; rfl] at hd
    unfold EvpMdCtx.own at hi
    cases hx : (s.ctx i).data with
    | none => rw [hx] at hi; cases hi
    | some d => rw [hx] at hd; exact hd.elim

/-! ## The ciphers of the suites with OMAC -/

theorem feed_one {A : Type} (upd : A → Bytes → A × Bytes) (s : A) (x : Bytes) : (feed upd s [x]).2 = (upd s x).2 := by
  simp [feed]

theorem kuz_start (enc : Bool) (key iv : Bytes) (hk : key.length = 32) (hiv : iv.length = 8) : KTlsInv key iv (kCtrSession enc key iv) := by
  obtain ⟨f1, f2, f3, f4⟩ := kCtrSession_facts enc key iv hk hiv
  refine ⟨by rw [f3]; exact f1, copyN_self hk, ?_⟩
  show memcpyTo (zeros 16) iv 8 = iv ++ zeros 8
  match iv, hiv with
  | [b0, b1, b2, b3, b4, b5, b6, b7], _ => rfl

theorem kuz_crypt (X : Crypto) (key iv : Bytes) (hiv : iv.length = 8) (c : KCtx) (h : KTlsInv key iv c) (arg : Int) (seq x : Bytes)
    (hs : seq.length = 8) (ha : arg = 0 ∨ arg = 1) :
    ∃ c', (kuzSuite X).crypt c arg seq x = some (c', ctrCrypt engineE .kuznyechik (tlstree X.hmac .kuznyechik key (recordNo seq arg))
      (beBytes 8 (beNat iv + recordNo seq arg)) x) ∧ KTlsInv key iv c' := by
  obtain ⟨r1, r2⟩ := kuz_rekey_inv c h.ctr.buf (beBytes 8 ((beNat iv + recordNo seq arg) % 2^64) ++ zeros 8)
    (tlstree X.hmac .kuznyechik key (recordNo seq arg)) (by simp [zeros]) (tlstree_length _ _ _ _)
  have e := kctr_history _ (by rw [r2]; exact r1) rfl [x]
  rw [feed_one, r2] at e
  have hc := kuz_ctl_eq X key iv hiv c h arg seq hs ha
  refine ⟨_, ?_, kuz_do_tlsInv key iv _ (show KTlsInv key iv (gost_grasshopper_cipher_ctl_tlstree X c true arg seq).1 by
    rw [hc]; exact ⟨by rw [r2]; exact r1, h.key, h.oiv⟩) x⟩
  show (if (gost_grasshopper_cipher_ctl_tlstree X c true arg seq).2 ≤ 0 then none else _) = _
  rw [show (gost_grasshopper_cipher_ctl_tlstree X c true arg seq).2 = 1 by rw [hc], if_neg (by decide)]
  congr 1
  refine Prod.ext rfl ?_
  show (gost_grasshopper_cipher_do_ctr (gost_grasshopper_cipher_ctl_tlstree X c true arg seq).1 x).2 = _
  rw [hc, e, List.flatten_singleton, ← beBytes_mod 8 (beNat iv + _)]
  rfl

theorem magma_start (rng : Nat → Fin 8 → W32) (enc : Bool) (key iv : Bytes) (hk : key.length = 32) (hiv : iv.length = 4) :
    MTlsInv key iv (magmaSession rng enc 4 false key iv) := by
  refine ⟨(magmaSession_ctr_facts rng enc false key iv hk hiv).1, ?_, ?_⟩
  · show key.take 32 = key
    exact List.take_of_length_le (Nat.le_of_eq hk)
  · show memcpy (zeros 8) iv 4 = iv ++ zeros 4
    match iv, hiv with
    | [b0, b1, b2, b3], _ => rfl

theorem magma_crypt (X : Crypto) (key iv : Bytes) (hiv : iv.length = 4) (c : CipherCtx) (h : MTlsInv key iv c) (arg : Int) (seq x : Bytes)
    (hs : seq.length = 8) (ha : arg = 0 ∨ arg = 1) :
    ∃ c', (magmaSuite X).crypt c arg seq x = some (c', ctrCrypt engineE .magma (tlstree X.hmac .magma key (recordNo seq arg))
      (beBytes 4 (beNat iv + recordNo seq arg)) x) ∧ MTlsInv key iv c' := by
  have hi : MctrInv magmaBox 0
      { c with num := 0, iv := beBytes 4 ((beNat iv + recordNo seq arg) % 2^32) ++ zeros 4
               cctx := magma_key c.cctx (tlstree X.hmac .magma key (recordNo seq arg)) } :=
    ⟨h.ctr.box, h.ctr.km, h.ctr.buf, (by decide : (0:Nat) < 2^32), fun h0 => absurd rfl h0⟩
  have e := mctr_history magmaBox 0 (by decide) _ hi rfl (by simp [zeros]) [x]
  rw [feed_one] at e
  simp only at e
  rw [magma_get_key_set _ _ (tlstree_length _ _ _ _)] at e
  have hc := magma_ctl_eq X key iv hiv c h arg seq hs ha
  refine ⟨_, ?_, magma_do_tlsInv key iv _ (show MTlsInv key iv (magma_cipher_ctl_tlstree X c true arg seq).1 by
    rw [hc]; exact ⟨hi, h.key, h.oiv⟩) x⟩
  show (if (magma_cipher_ctl_tlstree X c true arg seq).2 ≤ 0 then none else _) = _
  rw [show (magma_cipher_ctl_tlstree X c true arg seq).2 = 1 by rw [hc], if_neg (by decide)]
  congr 1
  refine Prod.ext rfl ?_
  show (magma_cipher_do_ctr (magma_cipher_ctl_tlstree X c true arg seq).1 x).2 = _
  rw [hc, e, List.flatten_singleton, ← beBytes_mod 4 (beNat iv + _)]
  rfl

/-! ## The suites with OMAC -/

/-- The MAC of a record. -/
def omacOf (X : Crypto) (n : OmacCipher) (mk : Bytes) (h : List Rec) (r : Rec) : Bytes :=
  X.cmac n (tlstree X.hmac n mk (h.length % 2^64)) (macData (h.length % 2^64) r)

/-- Encryption and decryption of a record. -/
def ctrOf (X : Crypto) (n : OmacCipher) (ek iv : Bytes) (h : List Rec) (x : Bytes) : Bytes :=
  ctrCrypt engineE n (tlstree X.hmac n ek (h.length % 2^64)) (beBytes (n.block / 2) (beNat iv + h.length % 2^64)) x

theorem omac_works (X : Crypto) (n : OmacCipher) (mk : Bytes) (h : List Rec) (r : Rec) (m : MdState CmacObj OmacF) (hm : OmacTls n mk m) :
    ∃ m', omacRecord X n m (seqOf h) (tlsHeader (seqOf h) r.1 r.2.length) r.2 = some (m', omacOf X n mk h r) ∧ OmacTls n mk m' := by
  obtain ⟨m', e, i⟩ := omac_record X n mk m hm (seqOf h) (tlsHeader (seqOf h) r.1 r.2.length) r.2 (seqOf_length h)
  refine ⟨m', ?_, i⟩
  rw [e, beNat_seqOf]
  rfl

theorem kuz_works (X : Crypto) (mk ek iv : Bytes) (hiv : iv.length = 8) :
    Works (kuzSuite X) (omacOf X .kuznyechik mk) (ctrOf X .kuznyechik ek iv) (fun _ => OmacTls .kuznyechik mk) (fun _ => KTlsInv ek iv) where
  mac h r m hm := omac_works X .kuznyechik mk h r m hm
  size h r := X.cmac_length _ _ _
  send h c x r hc _ := by
    have := kuz_crypt X ek iv hiv c hc 1 (seqOf (h ++ [r])) x (seqOf_length _) (Or.inr rfl)
    rw [recordNo_send] at this
    exact this
  recv h c x hc := by
    obtain ⟨c', e, i⟩ := kuz_crypt X ek iv hiv c hc 0 (seqOf h) x (seqOf_length _) (Or.inl rfl)
    rw [recordNo_recv] at e
    exact ⟨c', e, fun _ _ => i⟩
  twice h x := ctrCrypt_twice _ _ _ _
  len h x := by simp [ctrOf, ctrCrypt, xorStream]

theorem magma_works (X : Crypto) (mk ek iv : Bytes) (hiv : iv.length = 4) :
    Works (magmaSuite X) (omacOf X .magma mk) (ctrOf X .magma ek iv) (fun _ => OmacTls .magma mk) (fun _ => MTlsInv ek iv) where
  mac h r m hm := omac_works X .magma mk h r m hm
  size h r := X.cmac_length _ _ _
  send h c x r hc _ := by
    have := magma_crypt X ek iv hiv c hc 1 (seqOf (h ++ [r])) x (seqOf_length _) (Or.inr rfl)
    rw [recordNo_send] at this
    exact this
  recv h c x hc := by
    obtain ⟨c', e, i⟩ := magma_crypt X ek iv hiv c hc 0 (seqOf h) x (seqOf_length _) (Or.inl rfl)
    rw [recordNo_recv] at e
    exact ⟨c', e, fun _ _ => i⟩
  twice h x := ctrCrypt_twice _ _ _ _
  len h x := by simp [ctrOf, ctrCrypt, xorStream]

/-- **C88** Kuznyechik: whatever records are sent over a connection with the keys `ek`, `mk` and the IV `iv`, the fragments are those of
RFC 9189, and no memory is left by the MACs but that of the keyed context. -/
theorem C88_kuznyechik_sent (X : Crypto) (ek mk iv : Bytes) (hek : ek.length = 32) (hmk : mk.length = 32) (hiv : iv.length = 8)
    (rs : List Rec) :
    ∃ hash e, omacKeyed X .kuznyechik mk = some hash ∧
      tlsAll (tlsSeal (kuzSuite X)) ⟨hash, kCtrSession true ek iv, beBytes 8 0⟩ rs =
        some (e, protect (omacFragment X.hmac X.cmac engineE .kuznyechik ek mk iv) [] rs) ∧
      ∀ q, e.hash.heap.obj q ≠ none → (e.hash.ctx 0).own = some q := by
  obtain ⟨hash, e1, i1⟩ := omac_start X .kuznyechik mk hmk
  obtain ⟨m', c', e2, i2⟩ := seal_all (kuz_works X mk ek iv hiv) rs [] hash _ i1 (kuz_start true ek iv hek hiv)
  exact ⟨hash, _, e1, e2, omacTls_memory i2⟩

/-- **C88** Kuznyechik: the receiver accepts a sequence of records, returning the contents `rs`, if and only if they are the records of RFC 9189
for `rs`. -/
theorem C88_kuznyechik_received (X : Crypto) (ek mk iv : Bytes) (hek : ek.length = 32) (hmk : mk.length = 32) (hiv : iv.length = 8)
    (wire rs : List Rec) :
    ∃ hash, omacKeyed X .kuznyechik mk = some hash ∧
      ((tlsAll (tlsOpen (kuzSuite X)) ⟨hash, kCtrSession false ek iv, beBytes 8 0⟩ wire).map (·.2) = some rs ↔
        wire = protect (omacFragment X.hmac X.cmac engineE .kuznyechik ek mk iv) [] rs) := by
  obtain ⟨hash, e1, i1⟩ := omac_start X .kuznyechik mk hmk
  exact ⟨hash, e1, open_all (kuz_works X mk ek iv hiv) wire [] hash _ i1 (kuz_start false ek iv hek hiv) rs⟩

/-- **C88** Magma: whatever is sent, for all sequences of random masks. -/
theorem C88_magma_sent (X : Crypto) (rng : Nat → Fin 8 → W32) (ek mk iv : Bytes) (hek : ek.length = 32) (hmk : mk.length = 32)
    (hiv : iv.length = 4) (rs : List Rec) :
    ∃ hash e, omacKeyed X .magma mk = some hash ∧
      tlsAll (tlsSeal (magmaSuite X)) ⟨hash, magmaSession rng true 4 false ek iv, beBytes 8 0⟩ rs =
        some (e, protect (omacFragment X.hmac X.cmac engineE .magma ek mk iv) [] rs) ∧
      ∀ q, e.hash.heap.obj q ≠ none → (e.hash.ctx 0).own = some q := by
  obtain ⟨hash, e1, i1⟩ := omac_start X .magma mk hmk
  obtain ⟨m', c', e2, i2⟩ := seal_all (magma_works X mk ek iv hiv) rs [] hash _ i1 (magma_start rng true ek iv hek hiv)
  exact ⟨hash, _, e1, e2, omacTls_memory i2⟩

/-- **C88** Magma: the receiver accepts exactly the records of RFC 9189. -/
theorem C88_magma_received (X : Crypto) (rng : Nat → Fin 8 → W32) (ek mk iv : Bytes) (hek : ek.length = 32) (hmk : mk.length = 32)
    (hiv : iv.length = 4) (wire rs : List Rec) :
    ∃ hash, omacKeyed X .magma mk = some hash ∧
      ((tlsAll (tlsOpen (magmaSuite X)) ⟨hash, magmaSession rng false 4 false ek iv, beBytes 8 0⟩ wire).map (·.2) = some rs ↔
        wire = protect (omacFragment X.hmac X.cmac engineE .magma ek mk iv) [] rs) := by
  obtain ⟨hash, e1, i1⟩ := omac_start X .magma mk hmk
  exact ⟨hash, e1, open_all (magma_works X mk ek iv hiv) wire [] hash _ i1 (magma_start rng false ek iv hek hiv) rs⟩

/-! ## The suites with GOST 28147-89 -/

theorem xorFrom_length (bl : Nat) (g : Nat → Bytes) (off : Nat) (d : Bytes) : (xorFrom bl g off d).length = d.length := by
  simp [xorFrom]

theorem xorFrom_twice (bl : Nat) (g : Nat → Bytes) (off : Nat) (d : Bytes) : xorFrom bl g off (xorFrom bl g off d) = d := by
  unfold xorFrom
  apply List.ext_getElem
  · simp
  · intro k h1 h2
    simp [BitVec.xor_assoc]

theorem xorStream_append (bl : Nat) (g : Nat → Bytes) (a b : Bytes) : xorStream bl g (a ++ b) = xorStream bl g a ++ xorFrom bl g a.length b := by
  unfold xorStream xorFrom
  rw [List.mapIdx_append]
  congr 1
  congr 1
  funext i x
  rw [Nat.add_comm i a.length]

/-- The bytes the cipher has seen after the records `h`. -/
def sentBytes (h : List Rec) : Nat := (h.map fun s => s.2.length + 4).sum

theorem sentBytes_concat (h : List Rec) (r : Rec) : sentBytes (h ++ [r]) = sentBytes h + (r.2.length + 4) := by
  simp [sentBytes]

/-- The cipher context of a connection after the records `h`. -/
def CntTls (start : CipherCtx) (h : List Rec) (c : CipherCtx) : Prop :=
  ∃ chunks : List Bytes, c = (feed gost_cipher_do_cnt start chunks).1 ∧ chunks.flatten.length = sentBytes h

/-- The gamma of the connection. -/
abbrev cntTlsGamma (block : SubstBlock) (mesh : Nat) (key iv : Bytes) : Nat → Bytes :=
  cntGamma (E89 (kboxinit block)) (cryptoProMesh (D89 (kboxinit block))) cntIncr (decide (mesh ≠ 0)) key iv

theorem cnt_crypt (rng : Nat → Fin 8 → W32) (enc : Bool) (block : SubstBlock) (mesh : Nat) (key iv : Bytes) (hk : key.length = 32)
    (hiv : iv.length = 8) (h : List Rec) (c : CipherCtx) (hc : CntTls (cntSession rng enc block mesh key iv) h c) (x : Bytes) :
    (gost_cipher_do_cnt c x).2 = xorFrom 8 (cntTlsGamma block mesh key iv) (sentBytes h) x ∧
    ∀ r : Rec, x.length = r.2.length + 4 → CntTls (cntSession rng enc block mesh key iv) (h ++ [r]) (gost_cipher_do_cnt c x).1 := by
  obtain ⟨chunks, rfl, hl⟩ := hc
  constructor
  · have e1 := C11_cnt_keystream rng enc block mesh key iv hk hiv chunks
    have e2 := C11_cnt_keystream rng enc block mesh key iv hk hiv (chunks ++ [x])
    rw [feed_concat, e1, List.flatten_append, List.flatten_singleton, xorStream_append, hl] at e2
    exact List.append_cancel_left e2
  · intro r hx
    refine ⟨chunks ++ [x], ?_, ?_⟩
    · rw [feed_concat]
    · rw [List.flatten_append, List.flatten_singleton, List.length_append, hl, hx, sentBytes_concat]

theorem macStream_concat (h : List Rec) (r : Rec) : macStream (h ++ [r]) = macStream h ++ macData (h.length % 2^64) r := by
  unfold macStream
  rw [List.mapIdx_append, List.flatten_append]
  simp

/-- The MAC of the connection: GOST 28147-89 with CryptoPro key meshing, four bytes. -/
def mac89 (box : KBox) (mk : Bytes) (m : Bytes) : Bytes := (macMeshFold (M89 box) (mesh89 box) mk 0 (zeros 8) (macBlocks m)).take 4

/-- A keyed MAC context. -/
structure Keyed89 (box : KBox) (mk : Bytes) (c : ImitCtx) : Prop where
  set : c.key_set = true
  count : c.count = 0
  left : c.bytes_left = 0
  part : c.partial_block = zeros 8
  buf : c.buffer = zeros 8
  mesh : c.key_meshing = true
  size : c.dgst_size = 4
  box : c.cctx.box = box
  key : gost_get_key c.cctx = mk

theorem keyed89_set (c : ImitCtx) (b : SubstBlock) (param : Option SubstBlock) (mk : Bytes) (hk : mk.length = 32) :
    Keyed89 (kboxinit (param.getD b)) mk (gost_imit_set_key c b param mk) := by
  cases param with
  | none => exact ⟨rfl, rfl, rfl, rfl, rfl, rfl, rfl, rfl, gost_get_key_set _ _ hk⟩
  | some b' => exact ⟨rfl, rfl, rfl, rfl, rfl, rfl, rfl, rfl, gost_get_key_set _ _ hk⟩

theorem imit_size_kept (box : KBox) (mk : Bytes) (c0 c : ImitCtx) (m : Bytes) (k : Keyed89 box mk c0) (h : ImitInv c0 m c) :
    (gost_imit_set_len c 4).1 = c := by
  obtain ⟨bs, p, -, -, -, -, -, -, h7⟩ := h
  have hd : c.dgst_size = 4 := by
    have : c.dgst_size = (bs.foldl mac_block_mesh c0).dgst_size := by
      simp only [icore, Prod.mk.injEq] at h7
      exact h7.2.2.2.2.2
    rw [this, (fold_key_set _ _).2, k.size]
  unfold gost_imit_set_len
  rw [if_neg (by decide)]
  show { c with dgst_size := 4 } = c
  rw [← hd]

theorem imit_final_mac (box : KBox) (mk : Bytes) (c0 c : ImitCtx) (m : Bytes) (k : Keyed89 box mk c0) (h : ImitInv c0 m c) (hm : m.length ≠ 8) :
    gost_imit_final c = some (mac89 box mk m) := by
  obtain ⟨bs, p, h1, h2, h3, h4, h5, h6, h7⟩ := h
  rw [imit_final_eq c0 c k.set k.count bs p h3 h4 h5 h6 h7, meshFold_eq _ _ 0 c0 k.box k.mesh (by simp [k.count]), k.key, k.buf, k.size,
    finalBlocks_eq bs p h2 h4 (Or.inl (by rw [← h1]; exact hm)), h1]
  simp [get_mac, mac89]

theorem tlsHeader_length (h : List Rec) (t : Byte) (n : Nat) : (tlsHeader (seqOf h) t n).length = 13 := by
  simp [tlsHeader, seqOf]

theorem imit_works (box : KBox) (mk : Bytes) (c0 : ImitCtx) (k : Keyed89 box mk c0) (h : List Rec) (r : Rec) (m : ImitCtx)
    (hm : ImitInv c0 (macStream h) m) :
    ∃ m', imitRecord m (seqOf h) (tlsHeader (seqOf h) r.1 r.2.length) r.2 = some (m', mac89 box mk (macStream (h ++ [r]))) ∧
      ImitInv c0 (macStream (h ++ [r])) m' := by
  have hcat : macStream (h ++ [r]) = macStream h ++ tlsHeader (seqOf h) r.1 r.2.length ++ r.2 := by
    rw [macStream_concat, List.append_assoc]
    rfl
  have hlen : (macStream (h ++ [r])).length ≠ 8 := by
    rw [hcat, List.length_append, List.length_append, tlsHeader_length]
    omega
  obtain ⟨i1, e1⟩ := imit_update_inv c0 m (macStream h) (tlsHeader (seqOf h) r.1 r.2.length) k.set hm
  unfold imitRecord
  dsimp only
  rw [e1, if_neg (by decide)]
  generalize gost_imit_update m (tlsHeader (seqOf h) r.1 r.2.length) = u at i1 e1 ⊢
  by_cases hd : r.2 = []
  · have i2 : ImitInv c0 (macStream (h ++ [r])) u.1 := by rw [hcat, hd, List.append_nil]; rw [hd] at i1; exact i1
    rw [if_pos hd, if_neg (show ¬ (1 : Int) ≤ 0 by decide), imit_size_kept box mk c0 u.1 _ k i2, imit_final_mac box mk c0 u.1 _ k i2 hlen]
    exact ⟨_, rfl, i2⟩
  · obtain ⟨i2, e2⟩ := imit_update_inv c0 u.1 _ r.2 k.set i1
    rw [← hcat] at i2
    rw [if_neg hd, e2, if_neg (show ¬ (1 : Int) ≤ 0 by decide), imit_size_kept box mk c0 _ _ k i2, imit_final_mac box mk c0 _ _ k i2 hlen]
    exact ⟨_, rfl, i2⟩

theorem tlsMeshFold_length (box : KBox) (bs : List Bytes) : ∀ (k : Bytes) (j : Nat) (s : Bytes), s.length = 8 →
    (macMeshFold (M89 box) (mesh89 box) k j s bs).length = 8 := by
  induction bs with
  | nil => exact fun _ _ _ h => h
  | cons b bs ih => exact fun k j s _ => ih _ _ _ (M89_length _ _ _ _)

theorem gost89_works (rng : Nat → Fin 8 → W32) (enc : Bool) (block : SubstBlock) (mesh : Nat) (box : KBox) (mk ek iv : Bytes)
    (hek : ek.length = 32) (hiv : iv.length = 8) (c0 : ImitCtx) (k : Keyed89 box mk c0) :
    Works gost89Suite (fun h r => mac89 box mk (macStream (h ++ [r]))) (fun h => xorFrom 8 (cntTlsGamma block mesh ek iv) (sentBytes h))
      (fun h => ImitInv c0 (macStream h)) (CntTls (cntSession rng enc block mesh ek iv)) where
  mac h r m hm := imit_works box mk c0 k h r m hm
  size h r := by
    show ((macMeshFold _ _ mk 0 (zeros 8) _).take 4).length = 4
    rw [List.length_take, tlsMeshFold_length _ _ _ _ _ rfl]
    rfl
  send h c x r hc hx := by
    obtain ⟨e, i⟩ := cnt_crypt rng enc block mesh ek iv hek hiv h c hc x
    refine ⟨_, ?_, i r hx⟩
    rw [← e]
    rfl
  recv h c x hc := by
    obtain ⟨e, i⟩ := cnt_crypt rng enc block mesh ek iv hek hiv h c hc x
    refine ⟨_, ?_, i⟩
    rw [← e]
    rfl
  twice h x := xorFrom_twice _ _ _ _
  len h x := xorFrom_length _ _ _ _

/-- The state of both contexts at the start. -/
theorem gost89_start (rng : Nat → Fin 8 → W32) (enc : Bool) (block : SubstBlock) (mesh : Nat) (box : KBox) (mk ek iv : Bytes) (c0 : ImitCtx)
    (k : Keyed89 box mk c0) :
    ImitInv c0 (macStream []) c0 ∧ CntTls (cntSession rng enc block mesh ek iv) [] (cntSession rng enc block mesh ek iv) :=
  ⟨⟨[], [], rfl, by simp, by simp [k.left], by simp, by rw [k.part]; rfl, by simp, rfl⟩, [], rfl, rfl⟩

/-- **C88** GOST 28147-89 (any S-boxes for the cipher and for the MAC, meshing or not, any random masks, any earlier use of the MAC context):
whatever records are sent, the fragments are those of one keystream and one MAC over the connection. -/
theorem C88_gost89_sent (rng : Nat → Fin 8 → W32) (block : SubstBlock) (mesh : Nat) (cc : ImitCtx) (b : SubstBlock) (param : Option SubstBlock)
    (ek mk iv : Bytes) (hek : ek.length = 32) (hmk : mk.length = 32) (hiv : iv.length = 8) (rs : List Rec) :
    ∃ e, tlsAll (tlsSeal gost89Suite) ⟨gost_imit_set_key cc b param mk, cntSession rng true block mesh ek iv, beBytes 8 0⟩ rs =
      some (e, protect (streamFragment
        (fun m => (macMeshFold (M89 (kboxinit (param.getD b))) (mesh89 (kboxinit (param.getD b))) mk 0 (zeros 8) (macBlocks m)).take 4)
        (cntGamma (E89 (kboxinit block)) (cryptoProMesh (D89 (kboxinit block))) cntIncr (decide (mesh ≠ 0)) ek iv)) [] rs) := by
  have k := keyed89_set cc b param mk hmk
  obtain ⟨i1, i2⟩ := gost89_start rng true block mesh _ mk ek iv _ k
  obtain ⟨m', c', e2, -⟩ := seal_all (gost89_works rng true block mesh _ mk ek iv hek hiv _ k) rs [] _ _ i1 i2
  exact ⟨_, e2⟩

/-- **C88** GOST 28147-89: the receiver accepts exactly these records. -/
theorem C88_gost89_received (rng : Nat → Fin 8 → W32) (block : SubstBlock) (mesh : Nat) (cc : ImitCtx) (b : SubstBlock)
    (param : Option SubstBlock) (ek mk iv : Bytes) (hek : ek.length = 32) (hmk : mk.length = 32) (hiv : iv.length = 8) (wire rs : List Rec) :
    (tlsAll (tlsOpen gost89Suite) ⟨gost_imit_set_key cc b param mk, cntSession rng false block mesh ek iv, beBytes 8 0⟩ wire).map (·.2) =
        some rs ↔
      wire = protect (streamFragment
        (fun m => (macMeshFold (M89 (kboxinit (param.getD b))) (mesh89 (kboxinit (param.getD b))) mk 0 (zeros 8) (macBlocks m)).take 4)
        (cntGamma (E89 (kboxinit block)) (cryptoProMesh (D89 (kboxinit block))) cntIncr (decide (mesh ≠ 0)) ek iv)) [] rs := by
  have k := keyed89_set cc b param mk hmk
  obtain ⟨i1, i2⟩ := gost89_start rng false block mesh _ mk ek iv _ k
  exact open_all (gost89_works rng false block mesh _ mk ek iv hek hiv _ k) wire [] _ _ i1 i2 rs

/-- **C88** What is sent over a Kuznyechik connection is what is received. -/
theorem C88_kuznyechik_delivered (X : Crypto) (ek mk iv : Bytes) (hek : ek.length = 32) (hmk : mk.length = 32) (hiv : iv.length = 8)
    (rs : List Rec) :
    ∃ hash e, omacKeyed X .kuznyechik mk = some hash ∧
      tlsAll (tlsSeal (kuzSuite X)) ⟨hash, kCtrSession true ek iv, beBytes 8 0⟩ rs = some e ∧
      (tlsAll (tlsOpen (kuzSuite X)) ⟨hash, kCtrSession false ek iv, beBytes 8 0⟩ e.2).map (·.2) = some rs := by
  obtain ⟨hash, e, h1, h2, -⟩ := C88_kuznyechik_sent X ek mk iv hek hmk hiv rs
  obtain ⟨hash', h3, h4⟩ := C88_kuznyechik_received X ek mk iv hek hmk hiv (protect (omacFragment X.hmac X.cmac engineE .kuznyechik ek mk iv) [] rs) rs
  rw [h1] at h3
  cases h3
  exact ⟨hash, _, h1, h2, h4.2 rfl⟩

/-- **C88** Magma, whatever masks the two ends draw. -/
theorem C88_magma_delivered (X : Crypto) (rng rng' : Nat → Fin 8 → W32) (ek mk iv : Bytes) (hek : ek.length = 32) (hmk : mk.length = 32)
    (hiv : iv.length = 4) (rs : List Rec) :
    ∃ hash e, omacKeyed X .magma mk = some hash ∧
      tlsAll (tlsSeal (magmaSuite X)) ⟨hash, magmaSession rng true 4 false ek iv, beBytes 8 0⟩ rs = some e ∧
      (tlsAll (tlsOpen (magmaSuite X)) ⟨hash, magmaSession rng' false 4 false ek iv, beBytes 8 0⟩ e.2).map (·.2) = some rs := by
  obtain ⟨hash, e, h1, h2, -⟩ := C88_magma_sent X rng ek mk iv hek hmk hiv rs
  obtain ⟨hash', h3, h4⟩ := C88_magma_received X rng' ek mk iv hek hmk hiv (protect (omacFragment X.hmac X.cmac engineE .magma ek mk iv) [] rs) rs
  rw [h1] at h3
  cases h3
  exact ⟨hash, _, h1, h2, h4.2 rfl⟩

/-- **C88** GOST 28147-89: the masks and the earlier use of the MAC contexts may differ, the parameters not. -/
theorem C88_gost89_delivered (rng rng' : Nat → Fin 8 → W32) (block : SubstBlock) (mesh : Nat) (cc cc' : ImitCtx) (b : SubstBlock)
    (param : Option SubstBlock) (ek mk iv : Bytes) (hek : ek.length = 32) (hmk : mk.length = 32) (hiv : iv.length = 8) (rs : List Rec) :
    ∃ e, tlsAll (tlsSeal gost89Suite) ⟨gost_imit_set_key cc b param mk, cntSession rng true block mesh ek iv, beBytes 8 0⟩ rs = some e ∧
      (tlsAll (tlsOpen gost89Suite) ⟨gost_imit_set_key cc' b param mk, cntSession rng' false block mesh ek iv, beBytes 8 0⟩ e.2).map (·.2) =
        some rs := by
  obtain ⟨e, h⟩ := C88_gost89_sent rng block mesh cc b param ek mk iv hek hmk hiv rs
  exact ⟨_, h, (C88_gost89_received rng' block mesh cc' b param ek mk iv hek hmk hiv _ rs).2 rfl⟩

/-! ## Witnesses -/

/-- Keys and an IV of the lengths of the theorems. -/
example : sampleKey.length = 32 ∧ (zeros 8).length = 8 ∧ (zeros 4).length = 4 := ⟨rfl, rfl, rfl⟩

/-- Two records, one of them empty. -/
def sampleRecords : List Rec := [(22, [1, 2, 3]), (23, []), (23, [1, 2, 3])]

/-- What the MAC covers of them. -/
example : macStream sampleRecords =
    [0,0,0,0,0,0,0,0, 22,3,3, 0,3, 1,2,3] ++ [0,0,0,0,0,0,0,1, 23,3,3, 0,0] ++ [0,0,0,0,0,0,0,2, 23,3,3, 0,3, 1,2,3] := by decide +kernel

/-- The number of a record is part of its MAC: the same record sent twice is covered twice, differently. -/
example : macData 0 (23, [1]) ≠ macData 1 (23, [1]) := by decide

/-- The sequence number wraps. -/
example : seqNext [0,0,0,0,0,0,0,255] = [0,0,0,0,0,0,1,0] ∧ seqNext (List.replicate 8 255) = zeros 8 := by decide +kernel

/-- The model run on a concrete GOST 28147-89 connection: three records, delivered; the second one dropped, refused. -/
def sampleWire : List Rec :=
  match tlsAll (tlsSeal gost89Suite) ⟨gost_imit_set_key (freshImit witRng) Gost28147_TC26ParamSetZ none sampleKey,
    cntSession witRng true Gost28147_TC26ParamSetZ 1 sampleKey (zeros 8), beBytes 8 0⟩ sampleRecords with
  | some e => e.2
  | none => []

/-- The receiving end of that connection. -/
def sampleReceived (wire : List Rec) : Option (List Rec) :=
  (tlsAll (tlsOpen gost89Suite) ⟨gost_imit_set_key (freshImit witRng) Gost28147_TC26ParamSetZ none sampleKey,
    cntSession witRng false Gost28147_TC26ParamSetZ 1 sampleKey (zeros 8), beBytes 8 0⟩ wire).map (·.2)

example : sampleWire.map (·.2.length) = [7, 4, 7] ∧ sampleReceived sampleWire = some sampleRecords ∧
    sampleReceived (sampleWire.eraseIdx 1) = none ∧ sampleReceived [sampleWire.headD (0, []), sampleWire.headD (0, [])] = none := by
  decide +kernel

end Gost
