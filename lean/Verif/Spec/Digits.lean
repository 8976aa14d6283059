/-!
# Signed digit expansions
-/

namespace Gost.Spec

/-- The value of a digit string, least significant digit first, in the given base. -/
def digitsValue (base : Int) : List Int → Int
  | [] => 0
  | d :: ds => d + base * digitsValue base ds

end Gost.Spec
