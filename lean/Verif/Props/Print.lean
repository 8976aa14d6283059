import Verif.Model.Print
import Verif.Spec.Print
import Mathlib.Tactic.IntervalCases

/-!
# C79: printed keys can be read back, and public printing does not depend on the private key
-/

namespace Gost
open Spec

theorem hexUp_val (d : Nat) (h : d < 16) : hexDigitVal (hexUp d) = some d ∧ hexUp d ≠ '\n' ∧ hexUp d ≠ ' ' := by
  interval_cases d <;> decide

/-- The step of `hexNumber`. -/
def hexStep (a : Option Nat) (c : Char) : Option Nat :=
  match a, hexDigitVal c with | some v, some d => some (16 * v + d) | _, _ => none

theorem hexDigits_fold (n : Nat) (acc : List Char) :
    (hexDigits n acc).foldl hexStep (some 0) = acc.foldl hexStep (some n) := by
  induction n using Nat.strong_induction_on generalizing acc with
  | _ n ih =>
    rw [hexDigits]
    split
    · rename_i h; rw [h]
    · rw [ih (n / 16) (by omega), List.foldl_cons]
      have hv := (hexUp_val (n % 16) (by omega)).1
      simp only [hexStep, hv]
      rw [show 16 * (n / 16) + n % 16 = n by omega]

theorem hexDigits_ne (n : Nat) (h : n ≠ 0) (acc : List Char) : hexDigits n acc ≠ [] := by
  induction n using Nat.strong_induction_on generalizing acc with
  | _ n ih =>
    rw [hexDigits, dif_neg h]
    by_cases h0 : n / 16 = 0
    · rw [hexDigits, dif_pos h0]; simp
    · exact ih (n / 16) (by omega) h0 _

theorem hexDigits_mem (n : Nat) (acc : List Char) (P : Char → Prop) (hP : ∀ d, d < 16 → P (hexUp d)) (ha : ∀ c ∈ acc, P c) :
    ∀ c ∈ hexDigits n acc, P c := by
  induction n using Nat.strong_induction_on generalizing acc with
  | _ n ih =>
    rw [hexDigits]
    split
    · exact ha
    · apply ih (n / 16) (by omega)
      intro c hc
      rcases List.mem_cons.mp hc with rfl | hc
      · exact hP _ (by omega)
      · exact ha c hc

theorem bnPrint_number (n : Nat) : hexNumber (bnPrint n) = some n := by
  unfold bnPrint
  split
  · rename_i h; subst h; decide
  · rename_i h
    unfold hexNumber
    rw [if_neg (hexDigits_ne n h [])]
    exact hexDigits_fold n []

theorem bnPrint_line (n : Nat) : ∀ c ∈ bnPrint n, c ≠ '\n' := by
  unfold bnPrint
  split
  · intro c hc; rw [List.mem_singleton] at hc; subst hc; decide
  · exact hexDigits_mem n [] _ (fun d hd => (hexUp_val d hd).2.1) (by simp)

theorem textLines_line (l rest acc : List Char) (h : ∀ c ∈ l, c ≠ '\n') :
    textLines acc (l ++ '\n' :: rest) = (acc.reverse ++ l) :: textLines [] rest := by
  induction l generalizing acc with
  | nil => simp [textLines]
  | cons c l ih =>
    rw [List.cons_append, textLines, if_neg (h c List.mem_cons_self), ih _ (fun x hx => h x (List.mem_cons_of_mem _ hx))]
    simp

theorem bioIndent_line (i : Int) : ∀ c ∈ bioIndent i, c ≠ '\n' := by
  intro c hc
  rw [(List.mem_replicate.mp hc).2]; decide

theorem bioIndent_skip (i : Int) (c : Char) (l : List Char) (hc : c ≠ ' ') :
    (bioIndent i ++ c :: l).dropWhile (· = ' ') = c :: l := by
  unfold bioIndent
  generalize min i.toNat 128 = n
  induction n with
  | zero => simp [hc]
  | succ n ih => rw [List.replicate_succ, List.cons_append, List.dropWhile_cons_of_pos (by simp)]; exact ih

/-- A printed line: indentation, label, value. -/
theorem textLines_field (i : Int) (label value rest : List Char) (hl : ∀ c ∈ label, c ≠ '\n') (hv : ∀ c ∈ value, c ≠ '\n') :
    textLines [] (bioIndent i ++ (label ++ (value ++ '\n' :: rest))) = (bioIndent i ++ (label ++ value)) :: textLines [] rest := by
  have := textLines_line (bioIndent i ++ (label ++ value)) rest [] (by
    intro c hc
    rcases List.mem_append.mp hc with hc | hc
    · exact bioIndent_line i c hc
    · rcases List.mem_append.mp hc with hc | hc
      · exact hl c hc
      · exact hv c hc)
  simpa using this

/-- What the printed private value says. -/
def privText : Option Nat → List Char
  | none => "<undefined>".toList
  | some d => bnPrint d

theorem privText_line (p : Option Nat) : ∀ c ∈ privText p, c ≠ '\n' := by
  cases p with
  | none => decide
  | some d => exact bnPrint_line d

/-- The text of a public key and its parameters. -/
def pubText (ln : CurveNid → List Char) (i : Int) (X Y : Nat) (g : EcGroupRec) : List Char :=
  bioIndent i ++ ("Public key:".toList ++ ([] ++ '\n' :: (bioIndent (i + 3) ++ ("X:".toList ++ (bnPrint X ++ '\n' ::
    (bioIndent (i + 3) ++ ("Y:".toList ++ (bnPrint Y ++ '\n' ::
      (bioIndent i ++ ("Parameter set: ".toList ++ (ln g.name ++ '\n' :: [])))))))))))

theorem pub_print_eq (ln : CurveNid → List Char) (out : List Char) (pk : EvpPkey) (i : Int) (X Y : Nat) (g : EcGroupRec)
    (hp : pk.pub = some (some (X, Y))) (hg : pk.group = some g) :
    pub_print_gost_ec ln out pk i = (out ++ pubText ln i X Y g, 1) := by
  simp only [pub_print_gost_ec, print_gost_ec, print_gost_ec_pub, print_gost_ec_param, hp, hg, pubText]
  simp

theorem priv_print_eq (ln : CurveNid → List Char) (out : List Char) (pk : EvpPkey) (i : Int) (X Y : Nat) (g : EcGroupRec)
    (hp : pk.pub = some (some (X, Y))) (hg : pk.group = some g) :
    priv_print_gost_ec ln out pk i =
      (out ++ (bioIndent i ++ ("Private key: ".toList ++ (privText pk.priv ++ '\n' :: pubText ln i X Y g))), 1) := by
  have h1 : print_gost_priv out pk i = (out ++ (bioIndent i ++ ("Private key: ".toList ++ (privText pk.priv ++ ['\n']))), 1) := by
    rcases pk with ⟨nid, group, priv, pub⟩
    clear hp hg
    unfold print_gost_priv gost_get0_priv_key
    dsimp only
    cases priv with
    | none =>
      have e : privText none = "<undefined>".toList := rfl
      dsimp only
      generalize "Private key: ".toList = v
      generalize privText none = w at e ⊢
      subst e
      generalize "<undefined>".toList = u
      simp only [List.append_assoc]
    | some d =>
      have e : privText (some d) = bnPrint d := rfl
      dsimp only
      generalize "Private key: ".toList = v
      generalize privText (some d) = w at e ⊢
      subst e
      simp only [List.append_assoc]
  have h2 : priv_print_gost_ec ln out pk i = pub_print_gost_ec ln (print_gost_priv out pk i).1 pk i := by
    simp [priv_print_gost_ec, pub_print_gost_ec, print_gost_ec, h1]
  rw [h2, pub_print_eq ln _ pk i X Y g hp hg, h1]
  simp only [List.append_assoc, List.cons_append, List.nil_append]

theorem pubText_lines (ln : CurveNid → List Char) (hln : ∀ c, '\n' ∉ ln c) (i : Int) (X Y : Nat) (g : EcGroupRec) :
    (textLines [] (pubText ln i X Y g)).map (fun l => l.dropWhile (· = ' ')) =
      ["Public key:".toList, "X:".toList ++ bnPrint X, "Y:".toList ++ bnPrint Y, "Parameter set: ".toList ++ ln g.name] := by
  have hn : ∀ c ∈ ln g.name, c ≠ '\n' := fun c hc h => hln _ (h ▸ hc)
  have l1 : ∀ c ∈ "Public key:".toList, c ≠ '\n' := by decide
  have l2 : ∀ c ∈ "X:".toList, c ≠ '\n' := by decide
  have l3 : ∀ c ∈ "Y:".toList, c ≠ '\n' := by decide
  have l4 : ∀ c ∈ "Parameter set: ".toList, c ≠ '\n' := by decide
  rw [pubText, textLines_field i "Public key:".toList [] _ l1 (by simp),
    textLines_field (i + 3) "X:".toList (bnPrint X) _ l2 (bnPrint_line X),
    textLines_field (i + 3) "Y:".toList (bnPrint Y) _ l3 (bnPrint_line Y),
    textLines_field i "Parameter set: ".toList (ln g.name) [] l4 hn]
  simp only [List.map_cons, List.map_nil, textLines]
  congr 1
  · exact bioIndent_skip i 'P' _ (by decide)
  · congr 1
    · exact bioIndent_skip _ 'X' _ (by decide)
    · congr 1
      · exact bioIndent_skip _ 'Y' _ (by decide)
      · congr 1
        exact bioIndent_skip _ 'P' _ (by decide)

theorem prefix_drop (label value : List Char) : label.isPrefixOf (label ++ value) = true ∧ (label ++ value).drop label.length = value := by
  refine ⟨?_, List.drop_left⟩
  induction label with
  | nil => simp
  | cons c l ih => simp

/-- **C79.** Printing a private key succeeds; the text is appended to what was written before, and from it the private number
(or that there is none), the coordinates and the name of the parameter set can be read. -/
theorem C79_private_read_back (ln : CurveNid → List Char) (hln : ∀ c, '\n' ∉ ln c) (out : List Char) (pk : EvpPkey) (indent : Int)
    (X Y : Nat) (g : EcGroupRec) (hp : pk.pub = some (some (X, Y))) (hg : pk.group = some g) :
    ∃ t, priv_print_gost_ec ln out pk indent = (out ++ t, 1) ∧
      ((∃ d, pk.priv = some d ∧ (fieldOf "Private key: ".toList t).bind hexNumber = some d) ∨
        (pk.priv = none ∧ fieldOf "Private key: ".toList t = some "<undefined>".toList)) ∧
      (fieldOf "X:".toList t).bind hexNumber = some X ∧ (fieldOf "Y:".toList t).bind hexNumber = some Y ∧
      fieldOf "Parameter set: ".toList t = some (ln g.name) := by
  refine ⟨_, priv_print_eq ln out pk indent X Y g hp hg, ?_⟩
  have hl := pubText_lines ln hln indent X Y g
  have h0 : (bioIndent indent ++ ("Private key: ".toList ++ privText pk.priv)).dropWhile (· = ' ') =
      "Private key: ".toList ++ privText pk.priv := bioIndent_skip indent 'P' _ (by decide)
  simp only [fieldOf, textLines_field indent _ _ _ (by decide : ∀ c ∈ "Private key: ".toList, c ≠ '\n') (privText_line pk.priv),
    List.map_cons, hl, h0]
  have e0 := prefix_drop "Private key: ".toList (privText pk.priv)
  have e1 := prefix_drop "X:".toList (bnPrint X)
  have e2 := prefix_drop "Y:".toList (bnPrint Y)
  have e3 := prefix_drop "Parameter set: ".toList (ln g.name)
  have n1 : ∀ a : List Char, "X:".toList.isPrefixOf ("Private key: ".toList ++ a) = false := fun a => rfl
  have n2 : "X:".toList.isPrefixOf "Public key:".toList = false := rfl
  have n3 : ∀ a : List Char, "Y:".toList.isPrefixOf ("Private key: ".toList ++ a) = false := fun a => rfl
  have n4 : "Y:".toList.isPrefixOf "Public key:".toList = false := rfl
  have n5 : ∀ a : List Char, "Y:".toList.isPrefixOf ("X:".toList ++ a) = false := fun a => rfl
  have n6 : ∀ a : List Char, "Parameter set: ".toList.isPrefixOf ("Private key: ".toList ++ a) = false := fun a => rfl
  have n7 : "Parameter set: ".toList.isPrefixOf "Public key:".toList = false := rfl
  have n8 : ∀ a : List Char, "Parameter set: ".toList.isPrefixOf ("X:".toList ++ a) = false := fun a => rfl
  have n9 : ∀ a : List Char, "Parameter set: ".toList.isPrefixOf ("Y:".toList ++ a) = false := fun a => rfl
  refine ⟨?_, ?_, ?_, ?_⟩
  · simp only [List.findSome?_cons, e0.1, if_true, e0.2]
    cases hpr : pk.priv with
    | none => exact Or.inr ⟨rfl, rfl⟩
    | some d => exact Or.inl ⟨d, rfl, bnPrint_number d⟩
  · simp only [List.findSome?_cons, n1, n2, e1.1, Bool.false_eq_true, if_false, if_true, e1.2, Option.bind_some, bnPrint_number]
  · simp only [List.findSome?_cons, n3, n4, n5, e2.1, Bool.false_eq_true, if_false, if_true, e2.2, Option.bind_some, bnPrint_number]
  · simp only [List.findSome?_cons, n6, n7, n8, n9, e3.1, Bool.false_eq_true, if_false, if_true, e3.2]

/-- **C79.** Printing a public key succeeds; the coordinates and the name of the parameter set can be read from the text; there
is no line with a private key. -/
theorem C79_public_read_back (ln : CurveNid → List Char) (hln : ∀ c, '\n' ∉ ln c) (out : List Char) (pk : EvpPkey) (indent : Int)
    (X Y : Nat) (g : EcGroupRec) (hp : pk.pub = some (some (X, Y))) (hg : pk.group = some g) :
    ∃ t, pub_print_gost_ec ln out pk indent = (out ++ t, 1) ∧ fieldOf "Private key: ".toList t = none ∧
      (fieldOf "X:".toList t).bind hexNumber = some X ∧ (fieldOf "Y:".toList t).bind hexNumber = some Y ∧
      fieldOf "Parameter set: ".toList t = some (ln g.name) := by
  refine ⟨_, pub_print_eq ln out pk indent X Y g hp hg, ?_⟩
  have hl := pubText_lines ln hln indent X Y g
  simp only [fieldOf, hl]
  have e1 := prefix_drop "X:".toList (bnPrint X)
  have e2 := prefix_drop "Y:".toList (bnPrint Y)
  have e3 := prefix_drop "Parameter set: ".toList (ln g.name)
  have m1 : "Private key: ".toList.isPrefixOf "Public key:".toList = false := rfl
  have m2 : ∀ a : List Char, "Private key: ".toList.isPrefixOf ("X:".toList ++ a) = false := fun a => rfl
  have m3 : ∀ a : List Char, "Private key: ".toList.isPrefixOf ("Y:".toList ++ a) = false := fun a => rfl
  have m4 : ∀ a : List Char, "Private key: ".toList.isPrefixOf ("Parameter set: ".toList ++ a) = false := fun a => rfl
  have n2 : "X:".toList.isPrefixOf "Public key:".toList = false := rfl
  have n4 : "Y:".toList.isPrefixOf "Public key:".toList = false := rfl
  have n5 : ∀ a : List Char, "Y:".toList.isPrefixOf ("X:".toList ++ a) = false := fun a => rfl
  have n7 : "Parameter set: ".toList.isPrefixOf "Public key:".toList = false := rfl
  have n8 : ∀ a : List Char, "Parameter set: ".toList.isPrefixOf ("X:".toList ++ a) = false := fun a => rfl
  have n9 : ∀ a : List Char, "Parameter set: ".toList.isPrefixOf ("Y:".toList ++ a) = false := fun a => rfl
  refine ⟨?_, ?_, ?_, ?_⟩
  · simp only [List.findSome?_cons, List.findSome?_nil, m1, m2, m3, m4, Bool.false_eq_true, if_false]
  · simp only [List.findSome?_cons, n2, e1.1, Bool.false_eq_true, if_false, if_true, e1.2, Option.bind_some, bnPrint_number]
  · simp only [List.findSome?_cons, n4, n5, e2.1, Bool.false_eq_true, if_false, if_true, e2.2, Option.bind_some, bnPrint_number]
  · simp only [List.findSome?_cons, n7, n8, n9, e3.1, Bool.false_eq_true, if_false, if_true, e3.2]

/-- **C79.** Keys that print the same private text (same indentation) have the same private number, the same public point and
parameter sets of the same name. -/
theorem C79_text_determines_key (ln : CurveNid → List Char) (hln : ∀ c, '\n' ∉ ln c) (indent : Int) (k k' : EvpPkey)
    (X Y X' Y' : Nat) (g g' : EcGroupRec) (hp : k.pub = some (some (X, Y))) (hg : k.group = some g)
    (hp' : k'.pub = some (some (X', Y'))) (hg' : k'.group = some g')
    (h : (priv_print_gost_ec ln [] k indent).1 = (priv_print_gost_ec ln [] k' indent).1) :
    k.priv = k'.priv ∧ X = X' ∧ Y = Y' ∧ ln g.name = ln g'.name := by
  obtain ⟨t, ht, h1, h2, h3, h4⟩ := C79_private_read_back ln hln [] k indent X Y g hp hg
  obtain ⟨t', ht', h1', h2', h3', h4'⟩ := C79_private_read_back ln hln [] k' indent X' Y' g' hp' hg'
  rw [ht, ht'] at h
  simp only [List.nil_append] at h
  subst h
  rw [h2] at h2'
  rw [h3] at h3'
  rw [h4] at h4'
  refine ⟨?_, Option.some.inj h2', Option.some.inj h3', Option.some.inj h4'⟩
  have hu : hexNumber "<undefined>".toList = none := by decide
  rcases h1 with ⟨d, hd, hr⟩ | ⟨hd, hr⟩ <;> rcases h1' with ⟨d', hd', hr'⟩ | ⟨hd', hr'⟩
  · rw [hr] at hr'; rw [hd, hd', Option.some.inj hr']
  · rw [hr', Option.bind_some, hu] at hr; cases hr
  · rw [hr, Option.bind_some, hu] at hr'; cases hr'
  · rw [hd, hd']

/-- **C79.** What is printed for a public key or for parameters, and whether it succeeds, does not depend on the private key
(or the type): keys with the same group and public point print alike. -/
theorem C79_public_hides_private (ln : CurveNid → List Char) (out : List Char) (k k' : EvpPkey) (indent : Int)
    (hg : k.group = k'.group) (hp : k.pub = k'.pub) :
    pub_print_gost_ec ln out k indent = pub_print_gost_ec ln out k' indent ∧
    param_print_gost_ec ln out k indent = param_print_gost_ec ln out k' indent := by
  constructor
  · simp [pub_print_gost_ec, print_gost_ec, print_gost_ec_pub, print_gost_ec_param, hg, hp]
  · simp [param_print_gost_ec, print_gost_ec, print_gost_ec_param, hg]

/-- **C79.** Which calls succeed: printing parameters needs a group, printing a public or private key also a public point other
than infinity; a private key is not needed.  (A failing private print has written the private key already.) -/
theorem C79_success (ln : CurveNid → List Char) (out : List Char) (k : EvpPkey) (indent : Int) :
    ((param_print_gost_ec ln out k indent).2 = 1 ↔ k.group ≠ none) ∧
    ((pub_print_gost_ec ln out k indent).2 = 1 ↔ k.group ≠ none ∧ ∃ x y, k.pub = some (some (x, y))) ∧
    ((priv_print_gost_ec ln out k indent).2 = 1 ↔ k.group ≠ none ∧ ∃ x y, k.pub = some (some (x, y))) := by
  rcases k with ⟨nid, group, priv, pub⟩
  refine ⟨?_, ?_, ?_⟩
  · cases group <;> simp [param_print_gost_ec, print_gost_ec, print_gost_ec_param]
  · cases group <;> rcases pub with _ | _ | ⟨x, y⟩ <;>
      simp [pub_print_gost_ec, print_gost_ec, print_gost_ec_pub, print_gost_ec_param]
  · cases group <;> rcases pub with _ | _ | ⟨x, y⟩ <;>
      simp [priv_print_gost_ec, print_gost_ec, print_gost_priv, print_gost_ec_pub, print_gost_ec_param]

/-- A key with small numbers. -/
def printKey : EvpPkey := ⟨.gost2012_256, some ⟨23, 1, 1, 3, 10, 7, 1, .Test⟩, some 0xAB, some (some (3, 0x10))⟩

/-- Witness: the text of a key; it meets the hypotheses of the theorems. -/
example : priv_print_gost_ec (fun _ => "Test".toList) [] printKey 2 =
    ("  Private key: AB\n  Public key:\n     X:3\n     Y:10\n  Parameter set: Test\n".toList, 1) ∧
    printKey.pub = some (some (3, 0x10)) ∧ printKey.group ≠ none := by decide +kernel

end Gost
