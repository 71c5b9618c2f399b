import Verif.Model.Com

/-!
# Specification: the frames of the serial module
-/

namespace Ur20

open Com

/-- Bytes of user data per frame: 6 of 8, or 14 of 16. -/
def capacity : ProcessDataLength → Nat
  | .EightBytes => 6
  | .SixteenBytes => 14

end Ur20
