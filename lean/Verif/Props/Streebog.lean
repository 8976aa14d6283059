import Verif.Lemmas.Streebog

/-!
# C28, C29, C30: Streebog

A hashing session is: initialise (a context in any state, `init_gost2012_hash_ctx` overwrites all of it), any number of
update calls, finish.  `SbBuild` ranges over the compile-time variants (SSE2 for 64-bit or 32-bit x86 or portable core,
`_addcarry_u64` or portable addition, big-endian host).
-/

namespace Gost
open Spec

/-- The digest of a session with digest size `bits` and the given update calls. -/
def sbDigest (b : SbBuild) (bits : Nat) (chunks : List Bytes) : Bytes :=
  (gost2012_finish_hash b (absorb (gost2012_hash_block b) (init_gost2012_hash_ctx bits) chunks)).2

/-- **C30.** For every build variant and every sequence of update calls the 512-bit digest is the standard's hash of
the concatenation. -/
theorem C30_streebog512_is_standard (b : SbBuild) (chunks : List Bytes) :
    sbDigest b 512 chunks = Streebog.hash512 chunks.flatten := by
  have h0 : SbInv _ [] (init_gost2012_hash_ctx 512) (init_gost2012_hash_ctx 512).bufsize := init_inv 512
  have h := absorb_inv b _ chunks [] _ h0
  rw [sbDigest, finish_eq b _ _ _ h.1, h.2]
  rfl

/-- **C30.** The same for the 256-bit digest. -/
theorem C30_streebog256_is_standard (b : SbBuild) (chunks : List Bytes) :
    sbDigest b 256 chunks = Streebog.hash256 chunks.flatten := by
  have h0 : SbInv _ [] (init_gost2012_hash_ctx 256) (init_gost2012_hash_ctx 256).bufsize := init_inv 256
  have h := absorb_inv b _ chunks [] _ h0
  rw [sbDigest, finish_eq b _ _ _ h.1, h.2]
  rfl

/-- The compression function compiled either way is that of the standard, for all operands. -/
theorem C30_compression (b : SbBuild) (h N m : Bytes) (hh : h.length = 64) (hN : N.length = 64) (hm : m.length = 64) :
    b.g h N m = Streebog.g N h m := build_g b h N m hh hN hm

/-- **C30**, digest sizes: 64 and 32 bytes. -/
theorem C30_digest_length (b : SbBuild) (chunks : List Bytes) :
    (sbDigest b 512 chunks).length = 64 ∧ (sbDigest b 256 chunks).length = 32 := by
  have key : ∀ iv m : Bytes, iv.length = 64 → (Streebog.hash iv m).length = 64 := by
    intro iv m hi
    have hc : SbInv iv m (gost2012_hash_block b { init_gost2012_hash_ctx 512 with h := iv } m)
        (gost2012_hash_block b { init_gost2012_hash_ctx 512 with h := iv } m).bufsize := by
      have := hash_block_inv b iv m [] { init_gost2012_hash_ctx 512 with h := iv }
        ⟨[], [], rfl, ⟨by simp, rfl, hi, by simp only [init_gost2012_hash_ctx]; decide +kernel,
          by simp only [init_gost2012_hash_ctx]; decide +kernel, by simp [init_gost2012_hash_ctx]⟩, by simp, rfl, by simp⟩
      simpa using this.1
    obtain ⟨bs, r, hm, hcore, hr, -, -⟩ := hc.ex
    obtain ⟨hw, hq, hp⟩ := whole_eq bs r hcore.all hr
    have h1 : (sbFold iv bs).length = 64 := by rw [← hcore.h]; exact hcore.hlen
    subst hm
    unfold Streebog.hash
    simp only
    rw [hw, hq]
    refine g_length _ _ _ (g_length _ _ _ (g_length _ _ _ h1 (vec_length _) ?_) (vec_length _) (vec_length _)) (vec_length _)
      (vec_length _)
    rw [hp]; simp; omega
  rw [C30_streebog512_is_standard, C30_streebog256_is_standard, Streebog.hash512, Streebog.hash256, List.length_drop,
    key _ _ (by simp), key _ _ (by simp)]
  exact ⟨rfl, rfl⟩

/-- **C28.** Two histories of update calls delivering the same bytes give the same digest (in particular the same as one
call). -/
theorem C28_streebog_any_split (b b' : SbBuild) (bits : Nat) (hb : bits = 256 ∨ bits = 512) (c1 c2 : List Bytes)
    (h : c1.flatten = c2.flatten) : sbDigest b bits c1 = sbDigest b' bits c2 := by
  rcases hb with rfl | rfl
  · rw [C30_streebog256_is_standard, C30_streebog256_is_standard, h]
  · rw [C30_streebog512_is_standard, C30_streebog512_is_standard, h]

/-- Witness: sessions with different splits, and the reference hash of the standard on its first example, whose value the
kernel computes. -/
example : [[1, 2], [], [3]].flatten = ([[1], [2, 3]] : List Bytes).flatten := rfl

/-- Example M1 of the standard (RFC 6986 section 10.1.1): a check of the specification. -/
example : Streebog.hash512 ((List.range 63).map fun i => BitVec.ofNat 8 (0x30 + i % 10)) =
    beBytes 64 0x1b54d01a4af5b9d5cc3d86d68d285462b19abc2475222f35c085122be4ba1ffa00ad30f8767b3a82384c6574f024c311e2a481332b08ef7f41797891c1646f48 := by
  decide +kernel

/-- **C28**, continuing a copy: hashing may be forked at any point (`EVP_MD_CTX_copy` copies the whole context), both
branches give the digest of their own byte sequence. -/
theorem C28_fork (b : SbBuild) (pre s1 s2 : List Bytes) :
    let c := absorb (gost2012_hash_block b) (init_gost2012_hash_ctx 512) pre
    (gost2012_finish_hash b (absorb (gost2012_hash_block b) c s1)).2 = Streebog.hash512 (pre.flatten ++ s1.flatten) ∧
    (gost2012_finish_hash b (absorb (gost2012_hash_block b) c s2)).2 = Streebog.hash512 (pre.flatten ++ s2.flatten) := by
  have h0 : SbInv _ [] (init_gost2012_hash_ctx 512) (init_gost2012_hash_ctx 512).bufsize := init_inv 512
  have h := absorb_inv b _ pre [] _ h0
  have key : ∀ s : List Bytes, (gost2012_finish_hash b (absorb (gost2012_hash_block b)
      (absorb (gost2012_hash_block b) (init_gost2012_hash_ctx 512) pre) s)).2 =
      Streebog.hash512 (pre.flatten ++ s.flatten) := by
    intro s
    have h' := absorb_inv b _ s _ _ h.1
    rw [finish_eq b _ _ _ h'.1, h'.2, h.2]
    rfl
  exact ⟨key s1, key s2⟩

/-- **C29.** `add512` is addition modulo 2^512 of little-endian numbers, for all operands: the portable loop with its
hand-written carry. -/
theorem C29_add512_exact (x y : Bytes) (hx : x.length = 64) (hy : y.length = 64) :
    (add512 x y).length = 64 ∧ leNat (add512 x y) = (leNat x + leNat y) % 2^512 := by
  rw [add512_eq x y hx hy, leNat_leBytes, show (256 : Nat) ^ 64 = 2 ^ 512 from by rw [show (256 : Nat) = 2 ^ 8 from rfl, ← Nat.pow_mul]]
  exact ⟨leBytes_length _ _, rfl⟩

/-- **C29** for the `_addcarry_u64` variant. -/
theorem C29_add512_addcarry_exact (x y : Bytes) (hx : x.length = 64) (hy : y.length = 64) :
    (add512Adc x y).length = 64 ∧ leNat (add512Adc x y) = (leNat x + leNat y) % 2^512 := by
  rw [add512Adc_eq x y hx hy, leNat_leBytes, show (256 : Nat) ^ 64 = 2 ^ 512 from by rw [show (256 : Nat) = 2 ^ 8 from rfl, ← Nat.pow_mul]]
  exact ⟨leBytes_length _ _, rfl⟩

/-- **C29** for the byte-wise big-endian variant. -/
theorem C29_add512_bytes_exact (x y : Bytes) (hx : x.length = 64) (hy : y.length = 64) :
    (add512Bytes 0 x y).length = 64 ∧ leNat (add512Bytes 0 x y) = (leNat x + leNat y) % 2^512 := by
  rw [add512Bytes_spec 0 x y (by omega), hx, leNat_leBytes, show (256 : Nat) ^ 64 = 2 ^ 512 from by rw [show (256 : Nat) = 2 ^ 8 from rfl, ← Nat.pow_mul]]
  exact ⟨leBytes_length _ _, rfl⟩

/-- Witness: a carry through all words. -/
example : add512 (List.replicate 64 0xff) (leBytes 64 1) = List.replicate 64 0 := by decide +kernel

end Gost
