import Verif.Props.Tls

/-!
# C50: the KExp15 wrap ciphers

`c0` is any earlier state of the wrap context; `out0` is what the stack of `gost_kimp15` held.
-/

namespace Gost
open Spec

/-- The context after the update calls `chunks`, each with its own output buffer of contents `out`. -/
def wrapRun (X : Crypto) (rng : Nat → Fin 8 → W32) (out0 : Bytes) (n : OmacCipher) (out : Bytes) : WrapCtx → List Bytes → WrapCtx
  | c, [] => c
  | c, d :: ds => wrapRun X rng out0 n out (wrap_do X rng out0 n c out d).1 ds

theorem wrappedLen_le (n : OmacCipher) : wrappedLen n ≤ 48 := by cases n <;> decide
theorem wrappedLen_eq (n : OmacCipher) : wrappedLen n = 32 + n.block := by cases n <;> rfl

/-- The context right after initialisation for unwrapping. -/
theorem wrap_init_eq (n : OmacCipher) (c0 : WrapCtx) (key iv : Bytes) (hk : key.length = 64) (enc : Bool) :
    wrap_init n c0 (some key) (some iv) enc = ⟨iv.take (n.block / 2) ++ (zeros 8).drop (n.block / 2), key, zeros 48, 0, enc⟩ := by
  simp only [wrap_init, memcpy, List.take_of_length_le (Nat.le_of_eq hk)]

/-- One call that leaves room. -/
theorem wrap_step (X : Crypto) (rng : Nat → Fin 8 → W32) (out0 : Bytes) (n : OmacCipher) (out : Bytes) (iv key : Bytes)
    (enc : Bool) (m : Bytes) (d : Bytes) (h : m.length + d.length < wrappedLen n) :
    wrap_do X rng out0 n ⟨iv, key, m ++ zeros (48 - m.length), m.length, enc⟩ out d =
      (⟨iv, key, (m ++ d) ++ zeros (48 - (m ++ d).length), (m ++ d).length, enc⟩, out, 0) := by
  have hw := wrappedLen_le n
  have e : (m ++ zeros (48 - m.length)).take m.length ++ d ++ (m ++ zeros (48 - m.length)).drop (m.length + d.length) =
      (m ++ d) ++ zeros (48 - (m ++ d).length) := by
    rw [List.take_left, List.drop_append, List.drop_of_length_le (by omega), List.nil_append, zeros, List.drop_replicate,
      List.length_append, zeros]
    congr 2; omega
  simp only [wrap_do]
  have hle : d.length ≤ wrappedLen n := by omega
  rw [if_neg (by omega)]
  simp only [if_pos hle, e]
  rw [if_pos (by omega)]
  simp only [List.length_append]

theorem wrap_run_eq (X : Crypto) (rng : Nat → Fin 8 → W32) (out0 : Bytes) (n : OmacCipher) (out : Bytes) (iv key : Bytes)
    (enc : Bool) (m : Bytes) (cs : List Bytes) (h : m.length + cs.flatten.length < wrappedLen n) :
    wrapRun X rng out0 n out ⟨iv, key, m ++ zeros (48 - m.length), m.length, enc⟩ cs =
      ⟨iv, key, (m ++ cs.flatten) ++ zeros (48 - (m ++ cs.flatten).length), (m ++ cs.flatten).length, enc⟩ := by
  induction cs generalizing m with
  | nil => simp [wrapRun]
  | cons d ds ih =>
    rw [List.flatten_cons, List.length_append] at h
    rw [wrapRun, wrap_step X rng out0 n out iv key enc m d (by omega), ih (m ++ d) (by rw [List.length_append]; omega)]
    simp [List.append_assoc]

theorem wrap_run0 (X : Crypto) (rng : Nat → Fin 8 → W32) (out0 : Bytes) (n : OmacCipher) (out : Bytes) (iv key : Bytes)
    (enc : Bool) (cs : List Bytes) (h : cs.flatten.length < wrappedLen n) :
    wrapRun X rng out0 n out ⟨iv, key, zeros 48, 0, enc⟩ cs =
      ⟨iv, key, cs.flatten ++ zeros (48 - cs.flatten.length), cs.flatten.length, enc⟩ := by
  have := wrap_run_eq X rng out0 n out iv key enc [] cs (by simpa using h)
  rw [List.nil_append, List.nil_append] at this
  exact this

/-- The call that completes the wrapped key. -/
theorem wrap_complete (X : Crypto) (rng : Nat → Fin 8 → W32) (out0 : Bytes) (n : OmacCipher) (out : Bytes) (iv key : Bytes)
    (m d : Bytes) (h : m.length + d.length = wrappedLen n) :
    wrap_do X rng out0 n ⟨iv, key, m ++ zeros (48 - m.length), m.length, false⟩ out d =
      (let r := gost_kimp15 X rng out0 (m ++ d) n.ctr ((key.drop 32).take 32) n (key.take 32) (iv.take (n.block / 2)) out
       (⟨iv, key, (m ++ d) ++ zeros (48 - (m ++ d).length), (m ++ d).length, false⟩, r.1, if r.2 > 0 then 32 else 0)) := by
  have hw := wrappedLen_le n
  have e : (m ++ zeros (48 - m.length)).take m.length ++ d ++ (m ++ zeros (48 - m.length)).drop (m.length + d.length) =
      (m ++ d) ++ zeros (48 - (m ++ d).length) := by
    rw [List.take_left, List.drop_append, List.drop_of_length_le (by omega), List.nil_append, zeros, List.drop_replicate,
      List.length_append, zeros]
    congr 2; omega
  have e2 : ((m ++ d) ++ zeros (48 - (m ++ d).length)).take (m.length + d.length) = m ++ d := by
    rw [← List.length_append, List.take_left]
  simp only [wrap_do]
  have hle : d.length ≤ wrappedLen n := by omega
  rw [if_neg (by omega)]
  simp only [if_pos hle, e, e2]
  rw [if_neg (by omega), if_neg (by decide)]
  simp only [List.length_append]
  cases n <;> rfl

/-- **C50.** While the wrapped key is incomplete, every call - whatever the sizes - reports 0 and writes nothing. -/
theorem C50_incomplete (X : Crypto) (rng : Nat → Fin 8 → W32) (out0 : Bytes) (n : OmacCipher) (c0 : WrapCtx) (key iv : Bytes)
    (hk : key.length = 64) (out out' : Bytes) (cs : List Bytes) (d : Bytes)
    (h : cs.flatten.length + d.length < wrappedLen n) :
    (wrap_do X rng out0 n (wrapRun X rng out0 n out (wrap_init n c0 (some key) (some iv) false) cs) out' d).2 = (out', 0) := by
  rw [wrap_init_eq n c0 key iv hk, wrap_run0 X rng out0 n out _ key false cs (by omega),
    wrap_step X rng out0 n out' _ key false _ d (by simpa using h)]

/-- **C50.** The call that completes the wrapped key has the effect - on the context, the output buffer and the value
returned - of passing the whole at once: any split gives the same result. -/
theorem C50_any_split (X : Crypto) (rng : Nat → Fin 8 → W32) (out0 : Bytes) (n : OmacCipher) (c0 : WrapCtx) (key iv : Bytes)
    (hk : key.length = 64) (out out' : Bytes) (cs : List Bytes) (d : Bytes) (hd : d ≠ [])
    (h : cs.flatten.length + d.length = wrappedLen n) :
    wrap_do X rng out0 n (wrapRun X rng out0 n out (wrap_init n c0 (some key) (some iv) false) cs) out' d =
      wrap_do X rng out0 n (wrap_init n c0 (some key) (some iv) false) out' (cs.flatten ++ d) := by
  have hd : 0 < d.length := List.length_pos_iff.mpr hd
  rw [wrap_init_eq n c0 key iv hk, wrap_run0 X rng out0 n out _ key false cs (by omega)]
  rw [wrap_complete X rng out0 n out' _ key _ d h]
  have h2 := wrap_complete X rng out0 n out' (iv.take (n.block / 2) ++ (zeros 8).drop (n.block / 2)) key [] (cs.flatten ++ d)
    (by simpa using h)
  rw [List.nil_append] at h2
  exact h2.symm

/-- **C50.** Unwrapping, in any pieces, what KExp15 exported under the two halves of the key (MAC key first) returns the
exported key and 32. -/
theorem C50_unwraps_export (X : Crypto) (rng rng' : Nat → Fin 8 → W32) (out0 : Bytes) (n : OmacCipher) (c0 : WrapCtx)
    (kmac kenc iv s blob : Bytes) (hm : kmac.length = 32) (he : kenc.length = 32) (hiv : iv.length = n.block / 2)
    (hs : s.length = 32) (out_len : Nat) (hx : gost_kexp15 X rng s n.ctr kenc n kmac iv out_len = some blob)
    (out out' : Bytes) (cs : List Bytes) (d : Bytes) (hd : d ≠ []) (h : cs.flatten ++ d = blob) :
    (wrap_do X rng' out0 n (wrapRun X rng' out0 n out (wrap_init n c0 (some (kmac ++ kenc)) (some iv) false) cs) out' d).2 =
      (s ++ out'.drop 32, 32) := by
  have hb := wrappedLen_eq n
  have hl : blob.length = 32 + n.block := by
    have ho : s.length + n.block ≤ out_len := by
      by_contra hc
      rw [C33_export_small_buffer X rng n s kmac kenc iv out_len (by omega)] at hx
      exact absurd hx (by simp)
    rw [C33_export_is_kexp15 X rng n s kmac kenc iv hm he hiv out_len ho] at hx
    rw [← Option.some.inj hx, kexp15_length, hs]
  have hlen : cs.flatten.length + d.length = wrappedLen n := by rw [← List.length_append, h, hb, hl]
  have hd' : 0 < d.length := List.length_pos_iff.mpr hd
  rw [wrap_init_eq n c0 _ iv (by simp [hm, he]), wrap_run0 X rng' out0 n out _ _ false cs (by omega),
    wrap_complete X rng' out0 n out' _ _ _ d hlen, h]
  simp only
  have hi : (iv.take (n.block / 2) ++ (zeros 8).drop (n.block / 2)).take (n.block / 2) = iv := by
    rw [List.take_of_length_le (Nat.le_of_eq hiv), List.take_left' hiv]
  rw [hi, List.drop_left' hm, List.take_left' hm, List.take_of_length_le (Nat.le_of_eq he),
    C33_import_export X rng rng' out0 n s kmac kenc iv out' blob hs hm he hiv out_len hx]
  rfl

/-- **C50.** A call that would exceed the wrapped key is refused with −1; context and buffer stay as they are, so the
session can go on. -/
theorem C50_overflow_refused (X : Crypto) (rng : Nat → Fin 8 → W32) (out0 : Bytes) (n : OmacCipher) (c : WrapCtx)
    (out d : Bytes) (h1 : d.length ≤ wrappedLen n) (h2 : wrappedLen n < c.wrap_count + d.length) :
    wrap_do X rng out0 n c out d = (c, out, -1) := by
  simp only [wrap_do]
  rw [if_pos ⟨h1, h2⟩]

/-- **C50 (finding).** A single call with more data than a wrapped key holds is not refused: it is ignored and reported
like an incomplete one. -/
theorem C50_oversize_ignored (X : Crypto) (rng : Nat → Fin 8 → W32) (out0 : Bytes) (n : OmacCipher) (c : WrapCtx)
    (out d : Bytes) (h1 : wrappedLen n < d.length) (h2 : c.wrap_count < wrappedLen n) :
    wrap_do X rng out0 n c out d = (c, out, 0) := by
  simp only [wrap_do]
  have hle : ¬ d.length ≤ wrappedLen n := by omega
  rw [if_neg (by omega)]
  simp only [if_neg hle]
  rw [if_pos h2]

/-- **C50 (finding).** A wrapped key whose MAC is wrong is reported with 0, the value of an incomplete one (the buffer is
not written): it was accepted if and only if 32 is returned. -/
theorem C50_bad_mac_reports_zero (X : Crypto) (rng : Nat → Fin 8 → W32) (out0 : Bytes) (n : OmacCipher) (c0 : WrapCtx)
    (kmac kenc iv blob out : Bytes) (hm : kmac.length = 32) (he : kenc.length = 32) (hiv : iv.length = n.block / 2)
    (hl : blob.length = wrappedLen n) :
    ((wrap_do X rng out0 n (wrap_init n c0 (some (kmac ++ kenc)) (some iv) false) out blob).2.2 = 32 ↔
      ∃ s : Bytes, s.length = 32 ∧ blob = kexp15 engineE X.cmac n s kmac kenc iv) ∧
    ((wrap_do X rng out0 n (wrap_init n c0 (some (kmac ++ kenc)) (some iv) false) out blob).2.2 ≠ 32 →
      (wrap_do X rng out0 n (wrap_init n c0 (some (kmac ++ kenc)) (some iv) false) out blob).2 = (out, 0)) := by
  have h2 := wrap_complete X rng out0 n out (iv.take (n.block / 2) ++ (zeros 8).drop (n.block / 2)) (kmac ++ kenc) [] blob
    (by simpa using hl)
  rw [List.nil_append] at h2
  rw [wrap_init_eq n c0 _ iv (by simp [hm, he])]
  have hi : (iv.take (n.block / 2) ++ (zeros 8).drop (n.block / 2)).take (n.block / 2) = iv := by
    rw [List.take_of_length_le (Nat.le_of_eq hiv), List.take_left' hiv]
  rw [hi, List.drop_left' hm, List.take_left' hm, List.take_of_length_le (Nat.le_of_eq he)] at h2
  have h2 : wrap_do X rng out0 n ⟨iv.take (n.block / 2) ++ (zeros 8).drop (n.block / 2), kmac ++ kenc, zeros 48, 0, false⟩ out blob =
      (let r := gost_kimp15 X rng out0 blob n.ctr kenc n kmac iv out
       (⟨iv.take (n.block / 2) ++ (zeros 8).drop (n.block / 2), kmac ++ kenc, blob ++ zeros (48 - blob.length), blob.length, false⟩, r.1,
        if r.2 > 0 then 32 else 0)) := h2
  rw [h2]
  simp only
  have hiff := C33_import_iff_export X rng out0 n blob kmac kenc iv out hm he hiv (by rw [hl, wrappedLen_eq])
  rcases C33_failure_untouched X rng out0 n.ctr n blob kmac kenc iv out with ⟨r0, rb⟩ | ⟨r1, -⟩
  · rw [r0, rb]
    rw [r0] at hiff
    refine ⟨⟨fun h => absurd h (by decide), fun ⟨s, hs, hb⟩ => ?_⟩, fun _ => rfl⟩
    exfalso
    have h1 := C33_import_export X rng rng out0 n s kmac kenc iv out blob hs hm he hiv 48
      (by rw [hb]; exact C33_export_is_kexp15 X rng n s kmac kenc iv hm he hiv 48 (by have := wrappedLen_le n; have := wrappedLen_eq n; omega))
    rw [h1] at r0
    exact absurd r0 (by simp)
  · rw [r1]
    obtain ⟨s, hs, hb, -⟩ := hiff.mp r1
    exact ⟨⟨fun _ => ⟨s, hs, hb⟩, fun _ => rfl⟩, fun h => absurd rfl h⟩

theorem wrap_do_encrypt (X : Crypto) (rng : Nat → Fin 8 → W32) (out0 : Bytes) (n : OmacCipher) (c : WrapCtx)
    (h0 : c.wrap_count = 0) (h1 : c.encrypting = true) (out blob : Bytes) (hl : blob.length = wrappedLen n) :
    (wrap_do X rng out0 n c out blob).2 = (out, -1) := by
  have hle : blob.length ≤ wrappedLen n := by omega
  simp only [wrap_do]
  rw [if_neg (by omega)]
  simp only [if_pos hle]
  rw [if_neg (by omega), if_pos h1]

/-- **C50.** Wrapping is not implemented: a context for encryption answers −1 to complete data. -/
theorem C50_encrypt_refused (X : Crypto) (rng : Nat → Fin 8 → W32) (out0 : Bytes) (n : OmacCipher) (c0 : WrapCtx)
    (key iv : Bytes) (out blob : Bytes) (hl : blob.length = wrappedLen n) :
    (wrap_do X rng out0 n (wrap_init n c0 (some key) (some iv) true) out blob).2 = (out, -1) :=
  wrap_do_encrypt X rng out0 n _ rfl rfl out blob hl

/-- Witness: a Magma blob (40 bytes) in three pieces meets the hypotheses of `C50_any_split`. -/
example : ([List.replicate 7 1, [], List.replicate 30 2] : List Bytes).flatten.length + ([3, 4, 5] : Bytes).length = wrappedLen .magma := by
  decide

end Gost
