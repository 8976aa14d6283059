import Verif.Lemmas.OmacAcpkm
import Verif.Props.KuzModes

/-!
# C21: OMAC-ACPKM
-/

namespace Gost
open Spec

/-- A history of update calls; `none`: one of them failed. -/
def omacFeed (c : OmacCtx) : List Bytes → Option OmacCtx
  | [] => some c
  | d :: ds => (omac_acpkm_imit_update c d).bind fun c => omacFeed c ds

/-- Setting the section sizes, if asked for. -/
def omacSections (c : OmacCtx) : Option (Int × Int) → Option (OmacCtx × Int)
  | some (N, T) => omac_acpkm_key_mesh c N T
  | none => some (c, 1)

/-- Setting the tag size, feeding the chunks and reading the tag. -/
def omacRun (c : OmacCtx) (size : Int) (chunks : List Bytes) : Option Bytes :=
  if (omac_acpkm_set_len c size).2 = 1 then (omacFeed (omac_acpkm_set_len c size).1 chunks).bind omac_acpkm_imit_final
  else none

/-- A MAC session: set the key on a context used in any way before, optionally set the section sizes, set the tag size,
feed the chunks, read the tag. `none`: some call failed. -/
def omacMac (c : OmacCtx) (key : Bytes) (mesh : Option (Int × Int)) (size : Int) (chunks : List Bytes) : Option Bytes :=
  (omacSections (omac_acpkm_set_key c key).1 mesh).bind fun r => if r.2 = 1 then omacRun r.1 size chunks else none

/-- The ACPKM-Master context just after its key was set. -/
def masterCtx (key : Bytes) : KCtx :=
  gost_grasshopper_cipher_init_ctracpkm (gost_grasshopper_cipher_init_ctracpkm freshKCtx none none true) (some key)
    (some (List.replicate 8 0xff ++ zeros 8)) true

theorem masterCtx_facts (key : Bytes) (hk : key.length = 32) :
    KactrInv 4096 (masterCtx key) ∧ (masterCtx key).num = 0 ∧ (masterCtx key).key = key ∧
    (masterCtx key).iv = List.replicate 8 0xff ++ List.replicate 8 0 ∧ (masterCtx key).type = .ctracpkm := by
  refine ⟨⟨⟨rfl, rfl, copyN_length _ _, rfl⟩, rfl, rfl, (by decide : (0:Nat) < 2^32), fun _ => Nat.zero_le _⟩, rfl, copyN_self hk, rfl, rfl⟩

/-- Feeding keeps the invariant. -/
theorem omacFeed_inv (a : KCtx) (N : Nat) (h0 : 0 < N) (hN : N ≤ 2^32 - 16) (h16 : 16 ∣ N) (hm : ∀ i, (mout a i).length = 48)
    (chunks : List Bytes) (m : Bytes) (c : OmacCtx) (hk : c.key_set = true) (cm : CmacCtx) (hc : c.cmac = some cm)
    (h : OmInv a N m cm) :
    ∃ c' cm', omacFeed c chunks = some c' ∧ c'.key_set = true ∧ c'.cmac = some cm' ∧ c'.dgst_size = c.dgst_size ∧
      OmInv a N (m ++ chunks.flatten) cm' := by
  induction chunks generalizing m c cm with
  | nil => exact ⟨c, cm, rfl, hk, hc, rfl, by simpa using h⟩
  | cons d ds ih =>
    obtain ⟨cm1, e1, e2⟩ := cmac_update_inv a N h0 hN h16 hm m cm h d
    obtain ⟨c', cm', f1, f2, f3, f4, f5⟩ := ih (m ++ d) { c with cmac := some cm1 } hk cm1 rfl e2
    refine ⟨c', cm', ?_, f2, f3, f4, by simpa using f5⟩
    rw [omacFeed, omac_acpkm_imit_update, if_neg (by simp [hk]), hc, Option.bind_some, e1, Option.map_some, Option.bind_some]
    exact f1

theorem init_eq (key : Bytes) : CMAC_ACPKM_Init CMAC_ACPKM_CTX_new key =
      { cctx := gost_grasshopper_cipher_init_cbc (gost_grasshopper_cipher_init_cbc freshKCtx none none true)
          (some (gost_grasshopper_cipher_do_ctracpkm (masterCtx key) (zeros 48)).2) (some (zeros 16)) true
        actx := (gost_grasshopper_cipher_do_ctracpkm (masterCtx key) (zeros 48)).1
        km := (gost_grasshopper_cipher_do_ctracpkm (masterCtx key) (zeros 48)).2
        last_block := zeros 16, nlast_block := some 0, section_size := 4096, num := 0 } := rfl

/-- The freshly keyed context, with section sizes `N` and `T` in force. -/
theorem omac_keyed (key : Bytes) (hk : key.length = 32) (N T : Nat) (hT : 48 ≤ T) :
    OmInv { masterCtx key with section_size := T } N []
      { CMAC_ACPKM_Init CMAC_ACPKM_CTX_new key with
        section_size := N, actx := { (CMAC_ACPKM_Init CMAC_ACPKM_CTX_new key).actx with section_size := T } } := by
  obtain ⟨f1, f2, f3, f4, f5⟩ := masterCtx_facts key hk
  have hi := init_eq key
  rw [hi]
  have hs := mst_set_section (masterCtx key) T f2 (by rw [f1.km]; decide) hT
  refine ⟨[], [], rfl, by simp, by simp, Or.inl rfl, rfl, rfl, rfl, ?_⟩
  have m0 : mout { masterCtx key with section_size := T } 0 = (gost_grasshopper_cipher_do_ctracpkm (masterCtx key) (zeros 48)).2 := by
    show (gost_grasshopper_cipher_do_ctracpkm { masterCtx key with section_size := T } (zeros 48)).2 = _
    rw [hs]
  have m1 : mst { masterCtx key with section_size := T } 1 =
      { (gost_grasshopper_cipher_do_ctracpkm (masterCtx key) (zeros 48)).1 with section_size := T } := by
    show (gost_grasshopper_cipher_do_ctracpkm { masterCtx key with section_size := T } (zeros 48)).1 = _
    rw [hs]
  clear hi hs
  generalize gost_grasshopper_cipher_do_ctracpkm (masterCtx key) (zeros 48) = r at *
  refine ⟨rfl, rfl, ?_, ?_, ?_, rfl⟩
  · simp only [List.length_nil, Nat.zero_sub, Nat.mul_zero, Nat.zero_div]
    exact m1.symm
  · simp only [List.length_nil, Nat.zero_sub, Nat.mul_zero, Nat.zero_div]
    exact m0.symm
  · exact cbcAt_init _ r.2 (zeros 16) rfl rfl rfl

theorem omacMac_core (key : Bytes) (hk : key.length = 32) (N T : Nat) (h0 : 0 < N) (hN : N < 2^31) (hN16 : 16 ∣ N)
    (hT : 48 ≤ T) (hT' : T < 2^31) (hT16 : 16 ∣ T) (size : Nat) (cm : CmacCtx)
    (hcm : OmInv { masterCtx key with section_size := T } N [] cm) (chunks : List Bytes) :
    ((omacFeed { cmac := some cm, dgst_size := size, key_set := true } chunks).bind omac_acpkm_imit_final) =
      some ((omacAcpkm EKuz N T key chunks.flatten).take size) := by
  obtain ⟨f1, f2, f3, f4, f5⟩ := masterCtx_facts key hk
  have hinv : KactrInv T { masterCtx key with section_size := T } :=
    ⟨f1.box, rfl, f1.buf, f1.num, fun _ => by simp [f2]⟩
  have hmat : mout { masterCtx key with section_size := T } = omacMaterial EKuz T key := by
    funext i
    rw [mout_eq T (by omega) (by omega) hT16 _ hinv f2 f4]
    exact congrArg (fun k => omacMaterial EKuz T k i) f3
  have hm : ∀ i, (mout { masterCtx key with section_size := T } i).length = 48 := by
    intro i; rw [hmat]; simp [omacMaterial]
  obtain ⟨c', cm', e1, e2, e3, e4, e5⟩ := omacFeed_inv _ N h0 (by omega) hN16 hm chunks []
    { cmac := some cm, dgst_size := size, key_set := true } rfl cm rfl hcm
  rw [e1, Option.bind_some, omac_acpkm_imit_final, if_neg (by simp [e2]), e3, Option.bind_some,
    cmac_final_eq _ N h0 hN16 hm _ cm' e5 key T hmat, e4]
  rfl

/-- The master context after its first request: type and section size are as initialised. -/
theorem master_after (key : Bytes) (hk : key.length = 32) :
    (gost_grasshopper_cipher_do_ctracpkm (masterCtx key) (zeros 48)).1.type = .ctracpkm ∧
      (gost_grasshopper_cipher_do_ctracpkm (masterCtx key) (zeros 48)).1.section_size = 4096 := by
  obtain ⟨f1, f2, f3, f4, f5⟩ := masterCtx_facts key hk
  generalize masterCtx key = c0 at *
  have hb : ∀ (c : KCtx) (b : Bytes), (kAcpkmBody c b).1.type = c.type ∧ (kAcpkmBody c b).1.section_size = c.section_size := by
    intro c b
    unfold kAcpkmBody kAcpkmGamma apply_acpkm_grasshopper
    split <;> exact ⟨rfl, rfl⟩
  rw [do_ctracpkm_3 _ f2]
  simp only
  have h1 := hb { c0 with num := 0 } (zeros 16)
  generalize kAcpkmBody { c0 with num := 0 } (zeros 16) = r1 at *
  have h2 := hb r1.1 (zeros 16)
  generalize kAcpkmBody r1.1 (zeros 16) = r2 at *
  have h3 := hb r2.1 (zeros 16)
  generalize kAcpkmBody r2.1 (zeros 16) = r3 at *
  exact ⟨h3.1.trans (h2.1.trans (h1.1.trans f5)), h3.2.trans (h2.2.trans (h1.2.trans f1.km))⟩

theorem init_actx (key : Bytes) : (CMAC_ACPKM_Init CMAC_ACPKM_CTX_new key).actx =
    (gost_grasshopper_cipher_do_ctracpkm (masterCtx key) (zeros 48)).1 := by
  rw [init_eq]

theorem sections_T0 (cm : CmacCtx) (N : Nat) (h0 : 0 < N) (hN : N < 2^31) (hN16 : 16 ∣ N) :
    omacSections { cmac := some cm, dgst_size := 16, key_set := true } (some ((N : Int), ((0 : Nat) : Int))) =
        some ({ cmac := some { cm with section_size := N }, dgst_size := 16, key_set := true }, 1) := by
  have hNm : ((N : Int) % 2^32).toNat = N := by omega
  have hNt : ((N : Int).tmod 16) = 0 := Int.tmod_eq_zero_of_dvd (by omega)
  have hN0 : ¬ ((N : Int) = 0 ∨ (N : Int).tmod 16 ≠ 0) := by rw [hNt]; omega
  rw [omacSections, omac_acpkm_key_mesh]
  rw [if_neg hN0]
  simp only [hNm, Int.natCast_zero, ne_eq, not_true, if_false]

theorem sections_T (cm : CmacCtx) (N T : Nat) (h0 : 0 < N) (hN : N < 2^31) (hN16 : 16 ∣ N) (hT1 : 48 ≤ T) (hT2 : T < 2^31)
    (hT3 : 16 ∣ T) (htype : cm.actx.type = .ctracpkm) :
    omacSections { cmac := some cm, dgst_size := 16, key_set := true } (some ((N : Int), (T : Int))) =
        some ({ cmac := some { cm with section_size := N, actx := { cm.actx with section_size := T } }, dgst_size := 16,
                key_set := true }, 1) := by
  have hNm : ((N : Int) % 2^32).toNat = N := by omega
  have hNt : ((N : Int).tmod 16) = 0 := Int.tmod_eq_zero_of_dvd (by omega)
  have hN0 : ¬ ((N : Int) = 0 ∨ (N : Int).tmod 16 ≠ 0) := by rw [hNt]; omega
  have hTm : ((T : Int) % 2^32).toNat = T := by omega
  have hTt : ((T : Int).tmod 16) = 0 := Int.tmod_eq_zero_of_dvd (by omega)
  have hctl0 : gost_grasshopper_cipher_ctl_key_mesh cm.actx T = ({ cm.actx with section_size := T }, 1) := by
    unfold gost_grasshopper_cipher_ctl_key_mesh
    rw [if_neg, hTm]
    simp only [htype, hTt]
    simp; omega
  have hctl : evpCipherCtrl (gost_grasshopper_cipher_ctl_key_mesh cm.actx T) = ({ cm.actx with section_size := T }, 1) := by
    rw [hctl0]; rfl
  have hT0 : (T : Int) ≠ 0 := by omega
  rw [omacSections, omac_acpkm_key_mesh]
  rw [if_neg hN0]
  simp only [hNm, hT0, ne_eq, not_false_eq_true, if_true, hctl, show ¬ ((1 : Int) = 0) by decide, if_false]

theorem run_eq (c : OmacCtx) (size : Nat) (hs : 1 ≤ size) (hs' : size ≤ 16) (chunks : List Bytes) :
    omacRun c size chunks = (omacFeed { c with dgst_size := size } chunks).bind omac_acpkm_imit_final := by
  have hlen : omac_acpkm_set_len c size = ({ c with dgst_size := size }, 1) := by
    unfold omac_acpkm_set_len; rw [if_neg (by omega)]; rfl
  unfold omacRun; rw [hlen, if_pos rfl]

theorem bind_run (c : OmacCtx) (size : Int) (chunks : List Bytes) :
    ((some (c, (1 : Int))).bind fun r => if r.2 = 1 then omacRun r.1 size chunks else none) = omacRun c size chunks := rfl

/-- The session from a keyed context on. -/
theorem omacMac_keyed (key : Bytes) (hk : key.length = 32) (N T : Nat) (h0 : 0 < N)
    (hN : N < 2^31) (hN16 : 16 ∣ N) (hT : T = 0 ∨ (48 ≤ T ∧ T < 2^31 ∧ 16 ∣ T)) (size : Nat) (hs : 1 ≤ size)
    (hs' : size ≤ 16) (chunks : List Bytes) (cm : CmacCtx)
    (hkey : ∀ T : Nat, 48 ≤ T → OmInv { masterCtx key with section_size := T } N []
      { cm with section_size := N, actx := { cm.actx with section_size := T } })
    (htype : cm.actx.type = .ctracpkm ∧ cm.actx.section_size = 4096) :
    ((omacSections { cmac := some cm, dgst_size := 16, key_set := true } (some ((N : Int), (T : Int)))).bind fun r =>
      if r.2 = 1 then omacRun r.1 size chunks else none) =
      some ((omacAcpkm EKuz N (if T = 0 then 4096 else T) key chunks.flatten).take size) := by
  rcases hT with rfl | ⟨hT1, hT2, hT3⟩
  · rw [sections_T0 cm N h0 hN hN16, bind_run, run_eq _ size hs hs', if_pos rfl]
    have hk4 := hkey 4096 (by decide)
    have e : { cm.actx with section_size := 4096 } = cm.actx := by rw [← htype.2]
    rw [e] at hk4
    exact omacMac_core key hk N 4096 h0 hN hN16 (by decide) (by decide) (by decide) size _ hk4 chunks
  · rw [sections_T cm N T h0 hN hN16 hT1 hT2 hT3 htype.1, bind_run, run_eq _ size hs hs', if_neg (by omega)]
    exact omacMac_core key hk N T h0 hN hN16 hT1 hT2 hT3 size _ (hkey T hT1) chunks

/-- **C21** Any earlier use of the context, any sequence of updates, any legal section sizes `N` (key change period) and
`T` (master keystream section, at least the 48 bytes of one request; 0 leaves the default 4096): every call succeeds and
the tag is the standard's OMAC-ACPKM of the concatenated message, in which block `j` is processed under derived key
number `⌊16 j / N⌋`. -/
theorem C21_omac_acpkm_is_standard (c : OmacCtx) (key : Bytes) (hk : key.length = 32) (N T : Nat) (h0 : 0 < N)
    (hN : N < 2^31) (hN16 : 16 ∣ N) (hT : T = 0 ∨ (48 ≤ T ∧ T < 2^31 ∧ 16 ∣ T)) (size : Nat) (hs : 1 ≤ size)
    (hs' : size ≤ 16) (chunks : List Bytes) :
    omacMac c key (some (N, T)) size chunks =
      some ((omacAcpkm EKuz N (if T = 0 then 4096 else T) key chunks.flatten).take size) := by
  exact omacMac_keyed key hk N T h0 hN hN16 hT size hs hs' chunks (CMAC_ACPKM_Init CMAC_ACPKM_CTX_new key)
    (fun T h => omac_keyed key hk N T h) (by rw [init_actx]; exact master_after key hk)

/-- **C21** With the default sections. -/
theorem C21_omac_acpkm_default (c : OmacCtx) (key : Bytes) (hk : key.length = 32) (size : Nat) (hs : 1 ≤ size)
    (hs' : size ≤ 16) (chunks : List Bytes) :
    omacMac c key none size chunks = some ((omacAcpkm EKuz 4096 4096 key chunks.flatten).take size) := by
  refine Eq.trans ?_ (C21_omac_acpkm_is_standard c key hk 4096 0 (by decide) (by decide) (by decide) (Or.inl rfl) size hs hs' chunks)
  unfold omacMac
  have hsk : (omac_acpkm_set_key c key).1 =
      { cmac := some (CMAC_ACPKM_Init CMAC_ACPKM_CTX_new key), dgst_size := 16, key_set := true } := rfl
  have hsec : (CMAC_ACPKM_Init CMAC_ACPKM_CTX_new key).section_size = 4096 := rfl
  rw [hsk]
  generalize CMAC_ACPKM_Init CMAC_ACPKM_CTX_new key = cm at *
  have hm : omac_acpkm_key_mesh { cmac := some cm, dgst_size := 16, key_set := true } (4096 : Nat) (0 : Nat) =
      some ({ cmac := some cm, dgst_size := 16, key_set := true }, 1) := by
    unfold omac_acpkm_key_mesh
    rw [if_neg (by decide)]
    simp only [Int.natCast_zero, ne_eq, not_true, if_false]
    have : ((4096 : Nat) : Int) % 2^32 = 4096 := by decide
    rw [this]
    have : { cm with section_size := (4096 : Int).toNat } = cm := by
      show { cm with section_size := 4096 } = cm
      rw [← hsec]
    rw [this]
  rw [omacSections, omacSections, hm]

/-- **C21** Chunking independence, stated alone. -/
theorem C21_omac_acpkm_chunking (c c' : OmacCtx) (key : Bytes) (hk : key.length = 32) (size : Nat) (hs : 1 ≤ size)
    (hs' : size ≤ 16) (chunks chunks' : List Bytes) (h : chunks.flatten = chunks'.flatten) :
    omacMac c key none size chunks = omacMac c' key none size chunks' := by
  rw [C21_omac_acpkm_default c key hk size hs hs', C21_omac_acpkm_default c' key hk size hs hs', h]

/-- **C21** (error cases) Updates and the final call fail before a key is set; section sizes that are zero or not a
multiple of the block are refused without effect; tag sizes outside 1..16 are refused. -/
theorem C21_omac_acpkm_errors (d : Bytes) (c : OmacCtx) (N T : Int) (hN : N = 0 ∨ N.tmod 16 ≠ 0) (n : Int)
    (hn : n < 1 ∨ n > 16) :
    omac_acpkm_imit_update omac_acpkm_init d = none ∧ omac_acpkm_imit_final omac_acpkm_init = none ∧
    omac_acpkm_key_mesh c N T = some (c, -1) ∧ omac_acpkm_set_len c n = (c, 0) := by
  refine ⟨rfl, rfl, ?_, ?_⟩
  · unfold omac_acpkm_key_mesh; rw [if_pos hN]
  · unfold omac_acpkm_set_len; rw [if_pos hn]

/-- **C21** (what the code does) A bad `T` (not a multiple of 16) is refused, and not applied, but the section size `N` given with it
is in force from then on. -/
theorem C21_bad_T_refused_actual (cm : CmacCtx) (sz : Nat) (N T : Int) (hN : N ≠ 0) (hN' : N.tmod 16 = 0)
    (hT : T.tmod 16 ≠ 0) :
    omac_acpkm_key_mesh { cmac := some cm, dgst_size := sz, key_set := true } N T =
      some ({ cmac := some { cm with section_size := (N % 2^32).toNat }, dgst_size := sz, key_set := true }, 0) := by
  have hT0 : T ≠ 0 := by rintro rfl; simp at hT
  unfold omac_acpkm_key_mesh
  rw [if_neg (by simp [hN, hN'])]
  have hc : evpCipherCtrl (gost_grasshopper_cipher_ctl_key_mesh cm.actx T) = (cm.actx, 0) := by
    unfold gost_grasshopper_cipher_ctl_key_mesh
    rw [if_pos (Or.inr (Or.inr hT))]; rfl
  simp only [hT0, ne_eq, not_false_eq_true, if_true, hc]

/-- The hypotheses of C21 are met, e.g. by sections of 32 and 96 bytes. -/
example : 0 < 32 ∧ 32 < 2^31 ∧ 16 ∣ 32 ∧ (48 ≤ 96 ∧ 96 < 2^31 ∧ 16 ∣ 96) ∧ sampleKey.length = 32 := by decide

end Gost
