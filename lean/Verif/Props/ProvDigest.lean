import Verif.Model.ProvDigest
import Verif.Props.Gost94
import Verif.Props.Streebog

/-!
# C64: digests through the provider

Any number of contexts, created, duplicated, initialised, fed and finished in any order.
-/

namespace Gost
open Spec

attribute [local irreducible] longToInt

/-! ## Specification -/

/-- A call; contexts are numbered in the order of their creation. -/
inductive PdOp where
  | new (k : DigestKind)
  | dup (i : Nat)
  | init (i : Nat)
  | update (i : Nat) (d : Bytes)
  | final (i : Nat)

/-- What a call returns: success, and for a final call the bytes written and the length reported. -/
structure PdOut where
  ok : Bool
  written : Bytes
  outl : Nat

/-- The calls on the engine's contexts; `none`: undefined behaviour. -/
def pdStep (rng : Nat → Fin 8 → W32) (b : SbBuild) (s : List ProvDigestCtx) : PdOp → Option (List ProvDigestCtx × PdOut)
  | .new k => some (s ++ [prov_digest_newctx k], ⟨true, [], 0⟩)
  | .dup i => s[i]?.map fun g => (s ++ [prov_digest_dupctx g], ⟨true, [], 0⟩)
  | .init i => s[i]?.map fun g => (s.set i (prov_digest_init rng g).1, ⟨(prov_digest_init rng g).2, [], 0⟩)
  | .update i d => s[i]?.bind fun g => (prov_digest_update b g d).map fun r => (s.set i r.1, ⟨r.2, [], 0⟩)
  | .final i => s[i]?.bind fun g => (prov_digest_final b g).map fun r => (s.set i r.1, ⟨r.2.2.2, r.2.1, r.2.2.1⟩)

/-- Any history of calls: what they return. -/
def pdRun (rng : Nat → Fin 8 → W32) (b : SbBuild) : List ProvDigestCtx → List PdOp → Option (List PdOut)
  | _, [] => some []
  | s, o :: os => (pdStep rng b s o).bind fun r => (pdRun rng b r.1 os).map fun out => r.2 :: out

/-- The hash functions of the standards: GOST R 34.11-94 with the CryptoPro substitution, Streebog. -/
def stdHash : DigestKind → Bytes → Bytes
  | .gost94 => G94.hash (E89 (kboxinit GostR3411_94_CryptoProParamSet))
  | .sb256 => Streebog.hash256
  | .sb512 => Streebog.hash512

/-- A context of the specification: the message so far, if one was begun. -/
abbrev SpecDigest := DigestKind × Option Bytes

/-- The calls of the specification.  `none`: a call outside the interface (no such context, no message begun, a piece of `2^31` bytes or
more, a message of `2^60` bytes or more for GOST R 34.11-94). -/
def specStep (s : List SpecDigest) : PdOp → Option (List SpecDigest × PdOut)
  | .new k => some (s ++ [(k, none)], ⟨true, [], 0⟩)
  | .dup i => s[i]?.map fun g => (s ++ [g], ⟨true, [], 0⟩)
  | .init i => s[i]?.map fun g => (s.set i (g.1, some []), ⟨true, [], 0⟩)
  | .update i d => s[i]?.bind fun g => g.2.bind fun m =>
      if d.length < 2^31 then some (s.set i (g.1, some (m ++ d)), ⟨true, [], 0⟩) else none
  | .final i => s[i]?.bind fun g => g.2.bind fun m =>
      if m.length < 2^60 then some (s.set i (g.1, none), ⟨true, stdHash g.1 m, (stdHash g.1 m).length⟩) else none

def specRun : List SpecDigest → List PdOp → Option (List PdOut)
  | _, [] => some []
  | s, o :: os => (specStep s o).bind fun r => (specRun r.1 os).map fun out => r.2 :: out

/-! ## Refinement -/

/-- The digest data hold the message. -/
def MdInv : DigestKind → Bytes → DigestMd → Prop
  | .gost94, m, .g94 c => GInv (kboxinit GostR3411_94_CryptoProParamSet) m c
  | .sb256, m, .sb c => SbInv (List.replicate 64 1) m c c.bufsize ∧ c.digest_size = 256
  | .sb512, m, .sb c => SbInv (List.replicate 64 0) m c c.bufsize ∧ c.digest_size = 512
  | _, _, _ => False

theorem mdInv_init (rng : Nat → Fin 8 → W32) (old : Option DigestMd) (k : DigestKind) : MdInv k [] (DigestMd.init rng old k) := by
  cases k
  · exact init94_inv _
  · exact ⟨init_inv 256, rfl⟩
  · exact ⟨init_inv 512, rfl⟩

theorem mdInv_update (b : SbBuild) (k : DigestKind) (m d : Bytes) (x : DigestMd) (h : MdInv k m x) : MdInv k (m ++ d) (x.update b d) := by
  cases k <;> cases x <;> simp only [MdInv, DigestMd.update] at h ⊢
  · exact hash_block_ginv _ d m _ h
  · have := hash_block_inv b _ d m _ h.1
    exact ⟨this.1, this.2.trans h.2⟩
  · have := hash_block_inv b _ d m _ h.1
    exact ⟨this.1, this.2.trans h.2⟩

theorem mdInv_final (b : SbBuild) (k : DigestKind) (m : Bytes) (x : DigestMd) (h : MdInv k m x) (hl : m.length < 2^60) :
    x.final b = stdHash k m := by
  cases k <;> cases x <;> simp only [MdInv, DigestMd.final] at h ⊢
  · exact (finish_hash_eq _ m _ h hl).1
  · rw [finish_eq b _ m _ h.1, if_pos h.2]; rfl
  · rw [finish_eq b _ m _ h.1, if_neg (by rw [h.2]; decide)]; rfl

theorem stdHash_length (k : DigestKind) (m : Bytes) (hl : m.length < 2^60) : (stdHash k m).length = k.size := by
  cases k
  · have h := finish_hash_eq _ m _ (hash_block_ginv _ m [] _ (init94_inv (freshImit fun _ _ => 0).cctx)) (by simpa using hl)
    have h2 := finish_hash_length _ _ _ (hash_block_ginv _ m [] _ (init94_inv (freshImit fun _ _ => 0).cctx))
    have h3 : _ = G94.hash (E89 (kboxinit GostR3411_94_CryptoProParamSet)) m := h.1
    show (G94.hash (E89 (kboxinit GostR3411_94_CryptoProParamSet)) m).length = 32
    rw [← h3, h2]
  · have := (C30_digest_length ⟨false, false, false, false⟩ [m]).2
    rw [C30_streebog256_is_standard] at this
    simpa [stdHash, DigestKind.size] using this
  · have := (C30_digest_length ⟨false, false, false, false⟩ [m]).1
    rw [C30_streebog512_is_standard] at this
    simpa [stdHash, DigestKind.size] using this

/-- A context of the engine and one of the specification. -/
def PdRel (g : ProvDigestCtx) (s : SpecDigest) : Prop := g.kind = s.1 ∧ ∀ m, s.2 = some m → ∃ x, g.dctx = some x ∧ MdInv s.1 m x

theorem small_piece (d : Bytes) (h : d.length < 2^31) : longToInt (d.length : Nat) = d.length := by unfold longToInt; omega

theorem rel_get {gs : List ProvDigestCtx} {ss : List SpecDigest} (h : List.Forall₂ PdRel gs ss) (i : Nat) (s : SpecDigest)
    (hs : ss[i]? = some s) : ∃ g, gs[i]? = some g ∧ PdRel g s := by
  induction h generalizing i with
  | nil => simp at hs
  | cons hr _ ih =>
    cases i with
    | zero => simp only [List.getElem?_cons_zero, Option.some.injEq] at hs ⊢; subst hs; exact ⟨_, rfl, hr⟩
    | succ i => simp only [List.getElem?_cons_succ] at hs ⊢; exact ih i hs

theorem rel_set {gs : List ProvDigestCtx} {ss : List SpecDigest} (h : List.Forall₂ PdRel gs ss) (i : Nat) (g : ProvDigestCtx)
    (s : SpecDigest) (hr : PdRel g s) : List.Forall₂ PdRel (gs.set i g) (ss.set i s) := by
  induction h generalizing i with
  | nil => exact .nil
  | cons h1 h2 ih =>
    cases i with
    | zero => exact .cons hr h2
    | succ i => exact .cons h1 (ih i)

theorem rel_concat {gs : List ProvDigestCtx} {ss : List SpecDigest} (h : List.Forall₂ PdRel gs ss) (g : ProvDigestCtx)
    (s : SpecDigest) (hr : PdRel g s) : List.Forall₂ PdRel (gs ++ [g]) (ss ++ [s]) := by
  induction h with
  | nil => exact .cons hr .nil
  | cons h1 _ ih => exact .cons h1 ih

theorem pdStep_refines (rng : Nat → Fin 8 → W32) (b : SbBuild) (gs : List ProvDigestCtx) (ss ss' : List SpecDigest)
    (h : List.Forall₂ PdRel gs ss) (o : PdOp) (out : PdOut) (hs : specStep ss o = some (ss', out)) :
    ∃ gs', pdStep rng b gs o = some (gs', out) ∧ List.Forall₂ PdRel gs' ss' := by
  cases o with
  | new k =>
    cases hs
    exact ⟨_, rfl, rel_concat h _ _ ⟨rfl, fun m hm => by cases hm⟩⟩
  | dup i =>
    obtain ⟨s, h1, h2⟩ := Option.map_eq_some_iff.mp hs
    cases h2
    obtain ⟨g, hg, hr⟩ := rel_get h i s h1
    refine ⟨gs ++ [prov_digest_dupctx g], ?_, rel_concat h _ _ hr⟩
    rw [pdStep, hg]; rfl
  | init i =>
    obtain ⟨s, h1, h2⟩ := Option.map_eq_some_iff.mp hs
    cases h2
    obtain ⟨g, hg, hr⟩ := rel_get h i s h1
    refine ⟨gs.set i (prov_digest_init rng g).1, ?_, rel_set h i _ _ ⟨hr.1, fun m hm => ?_⟩⟩
    · rw [pdStep, hg]; rfl
    · cases hm
      refine ⟨_, rfl, ?_⟩
      rw [hr.1]
      exact mdInv_init rng g.dctx s.1
  | update i d =>
    obtain ⟨s, h1, h2⟩ := Option.bind_eq_some_iff.mp hs
    obtain ⟨m, h3, h4⟩ := Option.bind_eq_some_iff.mp h2
    obtain ⟨g, hg, hr⟩ := rel_get h i s h1
    obtain ⟨x, hx, hi⟩ := hr.2 m h3
    by_cases hd : d.length < 2^31
    · rw [if_pos hd] at h4
      cases h4
      have hl := small_piece d hd
      by_cases h0 : d.length = 0
      · have hd0 : d = [] := List.length_eq_zero_iff.mp h0
        subst hd0
        have hu : prov_digest_update b g [] = some (g, true) := by
          unfold prov_digest_update
          rw [if_pos (by rw [hl]; rfl)]
        refine ⟨gs.set i g, ?_, rel_set h i _ _ ⟨hr.1, fun m' hm => ?_⟩⟩
        · rw [pdStep, hg, Option.bind_some, hu]; rfl
        · cases hm
          refine ⟨x, hx, ?_⟩
          simpa using hi
      · have ht : d.take (longToInt (d.length : Nat)).toNat = d := by
          rw [hl]; exact List.take_of_length_le (by omega)
        have hu : prov_digest_update b g d = some ({ g with dctx := some (x.update b d) }, true) := by
          unfold prov_digest_update
          rw [if_neg (by rw [hl]; omega), if_neg (by rw [hl]; omega), ht, hx]
        refine ⟨gs.set i { g with dctx := some (x.update b d) }, ?_, rel_set h i _ _ ⟨hr.1, fun m' hm => ?_⟩⟩
        · rw [pdStep, hg, Option.bind_some, hu]; rfl
        · cases hm
          exact ⟨_, rfl, mdInv_update b s.1 m d x hi⟩
    · rw [if_neg hd] at h4; cases h4
  | final i =>
    obtain ⟨s, h1, h2⟩ := Option.bind_eq_some_iff.mp hs
    obtain ⟨m, h3, h4⟩ := Option.bind_eq_some_iff.mp h2
    obtain ⟨g, hg, hr⟩ := rel_get h i s h1
    obtain ⟨x, hx, hi⟩ := hr.2 m h3
    by_cases hl : m.length < 2^60
    · rw [if_pos hl] at h4
      cases h4
      have hf : prov_digest_final b g = some ({ g with dctx := none }, stdHash s.1 m, (stdHash s.1 m).length, true) := by
        unfold prov_digest_final
        rw [hx]
        simp only [mdInv_final b s.1 m x hi hl, stdHash_length s.1 m hl, hr.1]
      refine ⟨gs.set i { g with dctx := none }, ?_, rel_set h i _ _ ⟨hr.1, fun m' hm => by cases hm⟩⟩
      rw [pdStep, hg, Option.bind_some, hf]; rfl
    · rw [if_neg hl] at h4; cases h4

/-- **C64** Digests through the provider.  For every history of calls on any number of contexts of the three digests - new contexts,
duplicates at any point, initialisations at any point, pieces of data, final calls, all interleaved - every call returns what the
specification says: each final call gives the standard's hash of exactly the data its context got since it was last initialised (a duplicate
having got what its original had got by then), and its length. -/
theorem C64_digests (rng : Nat → Fin 8 → W32) (b : SbBuild) (ops : List PdOp) (outs : List PdOut) (h : specRun [] ops = some outs) :
    pdRun rng b [] ops = some outs := by
  have key : ∀ (ops : List PdOp) (gs : List ProvDigestCtx) (ss : List SpecDigest) (outs : List PdOut), List.Forall₂ PdRel gs ss →
      specRun ss ops = some outs → pdRun rng b gs ops = some outs := by
    intro ops
    induction ops with
    | nil => intro gs ss outs _ h; cases h; rfl
    | cons o ops ih =>
      intro gs ss outs hr h
      obtain ⟨⟨ss', out⟩, h1, h2⟩ := Option.bind_eq_some_iff.mp h
      obtain ⟨outs', h3, h4⟩ := Option.map_eq_some_iff.mp h2
      obtain ⟨gs', e1, e2⟩ := pdStep_refines rng b gs ss ss' hr o out h1
      rw [pdRun, e1, Option.bind_some, ih gs' ss' outs' e2 h3, Option.map_some, h4]
  exact key ops [] [] outs .nil h

/-- **C64** The sizes reported for a digest are the length of its results and the block length of the standard. -/
theorem C64_params (k : DigestKind) (m : Bytes) (h : m.length < 2^60) :
    (prov_digest_get_params k).2.1 = (stdHash k m).length ∧
    (prov_digest_get_params k).1 = (match k with | .gost94 => 32 | _ => 64) := by
  refine ⟨(stdHash_length k m h).symm, ?_⟩
  cases k <;> rfl

/-! ## Long pieces -/

/-- **C64** (what the code does) A piece of `2^32 q + r` bytes with `0 < r < 2^31` counts as its first `r` bytes, and one of a multiple of
`2^32` bytes as nothing; the call succeeds. -/
theorem C64_long_piece_cut (b : SbBuild) (g : ProvDigestCtx) (d : Bytes) (q r : Nat) (hd : d.length = 2^32 * q + r) (hr : r < 2^31) :
    prov_digest_update b g d = prov_digest_update b g (d.take r) := by
  have h1 : longToInt (d.length : Nat) = r := by unfold longToInt; omega
  have hlen : (d.take r).length = r := by rw [List.length_take]; omega
  have h2 : longToInt ((d.take r).length : Nat) = r := by rw [hlen]; unfold longToInt; omega
  unfold prov_digest_update
  rw [h1, h2]
  have ht : (d.take r).take ((r : Int)).toNat = d.take ((r : Int)).toNat := by
    rw [List.take_take]; congr 1; omega
  rw [ht]

/-- **C64** (what the code does) So two different messages have the same digest, for every message `m` and every `x` of `2^32` bytes: `m`,
and `m` followed by `x`. -/
theorem C64_long_piece_collision (rng : Nat → Fin 8 → W32) (b : SbBuild) (k : DigestKind) (m x : Bytes) (hm : m.length < 2^31)
    (hx : x.length = 4294967296) :
    (m ++ x ≠ m) ∧
    pdRun rng b [] [.new k, .init 0, .update 0 m, .update 0 x, .final 0] =
      some [⟨true, [], 0⟩, ⟨true, [], 0⟩, ⟨true, [], 0⟩, ⟨true, [], 0⟩, ⟨true, stdHash k m, k.size⟩] ∧
    pdRun rng b [] [.new k, .init 0, .update 0 m, .final 0] =
      some [⟨true, [], 0⟩, ⟨true, [], 0⟩, ⟨true, [], 0⟩, ⟨true, stdHash k m, k.size⟩] := by
  have hl : m.length < 2^60 := by omega
  have t1 : specStep [] (.new k) = some ([(k, none)], ⟨true, [], 0⟩) := rfl
  have t2 : specStep [(k, none)] (.init 0) = some ([(k, some [])], ⟨true, [], 0⟩) := rfl
  have t3 : specStep [(k, some [])] (.update 0 m) = some ([(k, some m)], ⟨true, [], 0⟩) := by
    have : specStep [(k, some [])] (.update 0 m) = if m.length < 2^31 then some ([(k, some m)], ⟨true, [], 0⟩) else none := rfl
    rw [this, if_pos hm]
  have t4 : specStep [(k, some m)] (.final 0) = some ([(k, none)], ⟨true, stdHash k m, k.size⟩) := by
    have : specStep [(k, some m)] (.final 0) =
      if m.length < 2^60 then some ([(k, none)], ⟨true, stdHash k m, (stdHash k m).length⟩) else none := rfl
    rw [this, if_pos hl, stdHash_length k m hl]
  obtain ⟨g1, a1, r1⟩ := pdStep_refines rng b [] [] _ .nil _ _ t1
  obtain ⟨g2, a2, r2⟩ := pdStep_refines rng b g1 _ _ r1 _ _ t2
  obtain ⟨g3, a3, r3⟩ := pdStep_refines rng b g2 _ _ r2 _ _ t3
  obtain ⟨g4, a4, r4⟩ := pdStep_refines rng b g3 _ _ r3 _ _ t4
  have hx0 : ∀ g, prov_digest_update b g x = some (g, true) := by
    intro g
    rw [C64_long_piece_cut b g x 1 0 (by omega) (by decide), List.take_zero]
    unfold prov_digest_update
    rw [if_pos]
    exact small_piece [] (by decide)
  obtain ⟨g, hg, -⟩ := rel_get r3 0 (k, some m) rfl
  have ax : pdStep rng b g3 (.update 0 x) = some (g3, ⟨true, [], 0⟩) := by
    rw [pdStep, hg, Option.bind_some, hx0]
    have : g3.set 0 g = g3 := by
      cases g3 with
      | nil => rfl
      | cons a l => simp only [List.getElem?_cons_zero, Option.some.injEq] at hg; rw [hg]; rfl
    rw [Option.map_some, this]
  refine ⟨?_, ?_, ?_⟩
  · intro h
    have := congrArg List.length h
    rw [List.length_append, hx] at this
    omega
  · simp only [pdRun, a1, a2, a3, ax, a4, Option.bind_some, Option.map_some]
  · simp only [pdRun, a1, a2, a3, a4, Option.bind_some, Option.map_some]

/-- **C64** (what the code does) A piece of `2^31` to `2^32 - 1` bytes (or that many more than a multiple of `2^32`) makes the digest read
beyond the end of the data. -/
theorem C64_long_piece_overrun (b : SbBuild) (g : ProvDigestCtx) (d : Bytes) (q r : Nat) (hd : d.length = 2^32 * q + r)
    (hr : 2^31 ≤ r) (hr' : r < 2^32) : prov_digest_update b g d = none := by
  have h1 : longToInt (d.length : Nat) = r - 4294967296 := by unfold longToInt; omega
  unfold prov_digest_update
  rw [h1, if_neg (by omega), if_pos (by omega)]

/-- Witness: two contexts, a duplicate in the middle of a message, an initialisation that drops data. -/
example : ∃ outs, specRun [] [.new .gost94, .new .sb512, .init 0, .update 0 [1], .init 1, .dup 0, .update 0 [2], .update 2 [3, 4],
    .init 1, .update 1 [], .final 0, .final 1, .final 2, .init 0, .final 0] = some outs := ⟨_, rfl⟩

end Gost
