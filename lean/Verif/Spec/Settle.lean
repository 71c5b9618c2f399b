import Verif.Model.Types

/-!
# How far a held analog output may move

The bounds of C107, in steps of the converter, and at the same time the number of cycles after which
the output does not move any more.
-/

namespace Ur20
namespace Spec

/-- At most 2 steps for the ranges that start above zero, at most 5 for the others. -/
def maxDrift : AnalogUIRange → Nat
  | .mA4To20 => 2
  | .V1To5 => 2
  | .V2To10 => 2
  | _ => 5

end Spec
end Ur20
