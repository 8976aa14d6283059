/-!
# Reading printed keys

How a reader takes the numbers and the name out of the text of a printed key, independent of the model: the text is cut into
lines, blanks at the beginning of a line are skipped, the rest is a label and a value.
-/

namespace Gost.Spec

/-- The lines of a text, each ended by a line feed (what follows the last line feed is ignored). -/
def textLines : List Char → List Char → List (List Char)
  | _, [] => []
  | acc, c :: cs => if c = '\n' then acc.reverse :: textLines [] cs else textLines (c :: acc) cs

/-- The value of a hexadecimal digit. -/
def hexDigitVal (c : Char) : Option Nat :=
  if '0' ≤ c ∧ c ≤ '9' then some (c.toNat - 48) else if 'A' ≤ c ∧ c ≤ 'F' then some (c.toNat - 55) else none

/-- The number written in hexadecimal; `none` if there is no digit or another character. -/
def hexNumber (s : List Char) : Option Nat :=
  if s = [] then none
  else s.foldl (fun a c => match a, hexDigitVal c with | some v, some d => some (16 * v + d) | _, _ => none) (some 0)

/-- What follows the label on the first line that starts (after blanks) with the label. -/
def fieldOf (label : List Char) (text : List Char) : Option (List Char) :=
  ((textLines [] text).map (fun l => l.dropWhile (· = ' '))).findSome? fun l =>
    if label.isPrefixOf l then some (l.drop label.length) else none

end Gost.Spec
