import Verif.Model.Base

/-!
# Bits of a stored image
-/

namespace Wifinfo.Spec
open Wifinfo

/-- Bit number `p` of a byte string: bit `p % 8` (least significant first) of byte `p / 8`. -/
def bitAt (x : Str) (p : Nat) : Bool := (x.getD (p / 8) 0).toNat.testBit (p % 8)

/-- The numbers of the bits in which two byte strings of the same length differ. -/
def flips (x y : Str) : List Nat := (List.range (8 * x.length)).filter fun p => bitAt x p != bitAt y p

end Wifinfo.Spec
