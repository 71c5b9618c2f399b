import Verif.Model.Coupler

/-!
# Specification: digital output modules

The five supported digital or relay output modules and their channel numbers, from the module
names (`4DO`, `8DO`, `16DO`, `4RO`).
-/

namespace Ur20.Spec

/-- Number of channels of a digital or relay output module; `none` for all other modules. -/
def digitalOutputs : Module → Option Nat
  | .dout ⟨.UR20_4DO_P, _⟩ => some 4
  | .dout ⟨.UR20_4DO_P_2A, _⟩ => some 4
  | .dout ⟨.UR20_8DO_P, _⟩ => some 8
  | .do16 => some 16
  | .ro _ => some 4
  | _ => none

/-- Number of channels of a digital input module. -/
def digitalInputs : Module → Option Nat
  | .di ⟨.UR20_4DI_P, _⟩ => some 4
  | .di ⟨.UR20_8DI_P_2W, _⟩ => some 8
  | _ => none

end Ur20.Spec
