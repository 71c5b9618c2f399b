import Verif.Spec.Channels

/-!
# Specification: outputs wired to inputs

The digital and analog input channels that an output channel can be wired to, in terms of the module
type and the parameter words.
-/

namespace Ur20.Spec

/-- The module types with digital inputs. -/
def DigitalInput (t : ModuleType) : Prop := t = .UR20_4DI_P ∨ t = .UR20_8DI_P_2W

/-- Range and format of an analog input channel according to the parameter words. -/
def InputFormat (t : ModuleType) (par : List Word) (ch : Nat) (r : AnalogUIRange)
    (f : DataFormat) : Prop :=
  match t with
  | .UR20_4AI_UI_12 | .UR20_4AI_UI_16 =>
    ParamIs par (1 + 2 * ch) f ∧ ParamIs par (1 + 2 * ch + 1) r
  | .UR20_4AI_UI_16_DIAG => ParamIs par (1 + 5 * ch + 3) f ∧ ParamIs par (1 + 5 * ch + 4) r
  | .UR20_8AI_I_16_DIAG_HD => ∃ a : AnalogIRange, r = currentRange a ∧
      ParamIs par (1 + 4 * ch + 2) f ∧ ParamIs par (1 + 4 * ch + 3) a
  | _ => False

/-- The value of one raw unit of a range in a format, in mA or V. -/
def rawUnit (s : ℚ × ℚ) (f : DataFormat) : ℚ := (s.2 - s.1) / fullScale f

end Ur20.Spec
