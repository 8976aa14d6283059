import Verif.Spec.Der
import Verif.Spec.Stream

/-!
# DER: INTEGER

The contents of a DER INTEGER for numbers that are not negative: big-endian, as few octets as leave the top bit clear.
-/

namespace Gost
namespace Der

/-- Number of bits. -/
def bitLen (d : Nat) : Nat := if d = 0 then 0 else d.log2 + 1

/-- Number of contents octets. -/
def intLen (d : Nat) : Nat := bitLen d / 8 + 1

/-- The INTEGER `d`. -/
def integer (d : Nat) : Bytes := tlv 2 (Spec.beBytes (intLen d) d)

end Der
end Gost
