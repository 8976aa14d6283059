import Verif.Lemmas.Gost94
import Verif.Props.Gost89

/-!
# C31, C32: GOST R 34.11-94

`E89 box` is the GOST 28147-89 block encryption with the given substitution (that of the standard by C54);
`Spec.G94.hash` is the hash of RFC 5831 over it.
-/

namespace Gost
open Spec

/-- An operation on a hash context: an update call, or finishing (which a user may do at any time). -/
inductive HashOp where
  | update (data : Bytes)
  | finish

/-- The digests returned by a sequence of operations of the engine's hash functions. -/
def runHashOps : HashCtx → List HashOp → List Bytes
  | _, [] => []
  | c, .update d :: ops => runHashOps (hash_block c d) ops
  | c, .finish :: ops => (finish_hash c).2 :: runHashOps (finish_hash c).1 ops

/-- The specification: each finishing call returns the hash of the bytes delivered so far. -/
def specHashOps (hash : Bytes → Bytes) : Bytes → List HashOp → List Bytes
  | _, [] => []
  | m, .update d :: ops => specHashOps hash (m ++ d) ops
  | m, .finish :: ops => hash m :: specHashOps hash m ops

/-- The bytes delivered by a sequence of operations. -/
def opBytes : List HashOp → Bytes
  | [] => []
  | .update d :: ops => d ++ opBytes ops
  | .finish :: ops => opBytes ops

theorem absorb_ginv (box : KBox) (chunks : List Bytes) : ∀ (m : Bytes) (c : HashCtx), GInv box m c →
    GInv box (m ++ chunks.flatten) (absorb hash_block c chunks) := by
  induction chunks with
  | nil => intro m c h; simpa [absorb] using h
  | cons d ds ih =>
    intro m c h
    have := ih _ _ (hash_block_ginv box d m c h)
    rw [List.append_assoc] at this
    simpa [absorb] using this

/-- **C31.** The digest object of the engine: for every sequence of update calls (and any leftover cipher context) with
fewer than 2^60 bytes in all the digest is the standard's hash of the concatenation, with the CryptoPro substitution. -/
theorem C31_digest_is_standard (c : Ctx) (chunks : List Bytes) (hl : chunks.flatten.length < 2 ^ 60) :
    (finish_hash (absorb hash_block (gost94_digest_init c) chunks)).2 =
      G94.hash (E89 (kboxinit GostR3411_94_CryptoProParamSet)) chunks.flatten := by
  have h := absorb_ginv _ chunks [] _ (init94_inv c)
  exact (finish_hash_eq _ _ _ h (by simpa using hl)).1

/-- **C31.** The same for a context made with any substitution block (or none: the test parameter set), as the command-line
tool makes it, restarted any number of times after hashing anything. -/
theorem C31_any_substitution_is_standard (c : Ctx) (b : Option SubstBlock) (before : List (List Bytes)) (chunks : List Bytes)
    (hl : chunks.flatten.length < 2 ^ 60) :
    let c0 := before.foldl (fun c chunks => (finish_hash (absorb hash_block (start_hash c) chunks)).1) (init_gost_hash_ctx c b)
    (finish_hash (absorb hash_block (start_hash c0) chunks)).2 =
      G94.hash (E89 (kboxinit (b.getD GostR3411_94_TestParamSet))) chunks.flatten := by
  intro c0
  have key : ∀ (l : List (List Bytes)) (c : HashCtx) (box : KBox), (∃ m, GInv box m c) → ∃ m, GInv box m (l.foldl
      (fun c chunks => (finish_hash (absorb hash_block (start_hash c) chunks)).1) c) := by
    intro l
    induction l with
    | nil => exact fun c box h => h
    | cons x xs ih =>
      intro c box ⟨m, h⟩
      apply ih
      have h1 := absorb_ginv box x [] _ (start_inv box m c h)
      exact ⟨[] ++ x.flatten, finish_hash_inv box _ _ h1⟩
  obtain ⟨m, hm⟩ := key before _ _ ⟨[], init_ctx_inv c b⟩
  have h := absorb_ginv _ chunks [] _ (start_inv _ m _ hm)
  exact (finish_hash_eq _ _ _ h (by simpa using hl)).1

/-- **C31.** Any two histories of update calls delivering the same bytes (of any number) give the same digest, for every
substitution block. -/
theorem C31_gost94_any_split (c d : Ctx) (b : Option SubstBlock) (c1 c2 : List Bytes) (h : c1.flatten = c2.flatten) :
    (finish_hash (absorb hash_block (init_gost_hash_ctx c b) c1)).2 =
    (finish_hash (absorb hash_block (init_gost_hash_ctx d b) c2)).2 := by
  have h1 := absorb_ginv _ c1 [] _ (init_ctx_inv c b)
  have h2 := absorb_ginv _ c2 [] _ (init_ctx_inv d b)
  rw [← h] at h2
  exact finish_hash_congr _ _ _ _ h1 h2

/-- **C31.** Finishing leaves the context usable: in any interleaving of update and finishing calls every finishing call
returns the hash of all the bytes delivered before it. -/
theorem C31_finish_keeps_context (c : Ctx) (b : Option SubstBlock) (ops : List HashOp) (hl : (opBytes ops).length < 2 ^ 60) :
    runHashOps (init_gost_hash_ctx c b) ops =
      specHashOps (G94.hash (E89 (kboxinit (b.getD GostR3411_94_TestParamSet)))) [] ops := by
  have key : ∀ (ops : List HashOp) (m : Bytes) (c : HashCtx) (box : KBox), GInv box m c → (m ++ opBytes ops).length < 2 ^ 60 →
      runHashOps c ops = specHashOps (G94.hash (E89 box)) m ops := by
    intro ops
    induction ops with
    | nil => intros; rfl
    | cons op ops ih =>
      intro m c box hc hlen
      cases op with
      | update d =>
        rw [runHashOps, specHashOps]
        exact ih _ _ _ (hash_block_ginv box d m c hc) (by simpa [opBytes] using hlen)
      | finish =>
        rw [runHashOps, specHashOps]
        rw [opBytes] at hlen
        have hf := finish_hash_eq box m c hc (by rw [List.length_append] at hlen; omega)
        rw [hf.1, ih _ _ _ hf.2 hlen]
  exact key ops [] _ _ (init_ctx_inv c b) (by simpa using hl)

/-- **C31**, digest size: 32 bytes. -/
theorem C31_digest_length (c : Ctx) (b : Option SubstBlock) (chunks : List Bytes) :
    (finish_hash (absorb hash_block (init_gost_hash_ctx c b) chunks)).2.length = 32 :=
  finish_hash_length _ _ _ (absorb_ginv _ chunks [] _ (init_ctx_inv c b))

/-- A context with arbitrary contents. -/
def junkCtx : Ctx := { sampleCtx with key := fun _ => 0x55, mask := fun _ => 0x77 }

/-- Witness and check of the specification and model: the example of the standard (test parameter set), delivered in
three pieces with an intermediate finish. -/
example : (runHashOps (init_gost_hash_ctx junkCtx none)
    [.update [0x54, 0x68, 0x69, 0x73, 0x20], .finish, .update [0x69, 0x73, 0x20, 0x6d, 0x65, 0x73, 0x73, 0x61, 0x67, 0x65, 0x2c, 0x20, 0x6c, 0x65, 0x6e, 0x67],
     .update [0x74, 0x68, 0x3d, 0x33, 0x32, 0x20, 0x62, 0x79, 0x74, 0x65, 0x73], .finish]).getLast? =
    some (beBytes 32 0xb1c466d37519b82e8319819ff32595e047a28cb6f83eff1c6916a815a637fffa) := by decide +kernel

/-- **C32.** The addition used for the checksum is exact: the result and the carry returned are the two parts of the sum of
the little-endian numbers, for operands of any size; on 32 bytes this is addition modulo 2^256. -/
theorem C32_add_blocks_exact (n : Nat) (x y : Bytes) (hx : x.length = n) (hy : y.length = n) :
    (add_blocks n 0 x y).1.length = n ∧
    leNat (add_blocks n 0 x y).1 + 2 ^ (8 * n) * (add_blocks n 0 x y).2 = leNat x + leNat y := by
  have h := add_blocks_eq n 0 x y hx hy
  rw [h.1, h.2, leNat_leBytes, Nat.pow_mul, show 2 ^ 8 = 256 from rfl, Nat.add_zero]
  exact ⟨by simp, Nat.mod_add_div _ _⟩

theorem C32_checksum_mod_2_256 (x y : Bytes) (hx : x.length = 32) (hy : y.length = 32) :
    leNat (add_blocks 32 0 x y).1 = (leNat x + leNat y) % 2 ^ 256 := by
  rw [(add_blocks_eq 32 0 x y hx hy).1, leNat_leBytes, Nat.add_zero, show (256 : Nat) ^ 32 = 2 ^ 256 from (Nat.pow_mul 2 8 32).symm]

/-- **C32.** The checksum held by the context after any history is the sum of the complete blocks modulo 2^256. -/
theorem C32_context_checksum (c : Ctx) (b : Option SubstBlock) (bs : List Bytes) (r : Bytes) (hb : ∀ x ∈ bs, x.length = 32)
    (hr : r.length < 32) (chunks : List Bytes) (h : chunks.flatten = bs.flatten ++ r) :
    leNat (absorb hash_block (init_gost_hash_ctx c b) chunks).S = (bs.map leNat).sum % 2 ^ 256 := by
  have hi := absorb_ginv _ chunks [] _ (init_ctx_inv c b)
  obtain ⟨cs, s, hm, hc, hs, -, -⟩ := hi.ex
  rw [List.nil_append, h] at hm
  obtain ⟨rfl, rfl⟩ := flatten_uniq 32 bs cs r s hb hc.all hr hs hm
  rw [hc.S, leNat_leBytes, show (256 : Nat) ^ 32 = 2 ^ 256 from (Nat.pow_mul 2 8 32).symm]

/-- Witness: a carry through all bytes. -/
example : add_blocks 32 0 (List.replicate 32 0xff) (1 :: List.replicate 31 0) = (List.replicate 32 0, 1) := by decide +kernel

end Gost
