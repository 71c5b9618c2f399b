import Verif.Spec.Wiring

/-!
# Specification: which changes of an input are visible
-/

namespace Ur20.Spec

/-- The channel is not disabled by the parameter words. -/
def InputEnabled (t : ModuleType) (par : List Word) (ch : Nat) : Prop :=
  match t with
  | .UR20_4AI_UI_12 | .UR20_4AI_UI_16 => ¬ ParamIs par (1 + 2 * ch + 1) AnalogUIRange.Disabled
  | .UR20_4AI_UI_16_DIAG => ¬ ParamIs par (1 + 5 * ch + 4) AnalogUIRange.Disabled
  | .UR20_8AI_I_16_DIAG_HD => ¬ ParamIs par (1 + 4 * ch + 3) AnalogIRange.Disabled
  | .UR20_4AI_RTD_DIAG => ¬ ParamIs par (1 + 7 * ch) RtdRange.Disabled
  | .UR20_4AI_TC_DIAG => ¬ ParamIs par (1 + 7 * ch) TcRange.Disabled
  | _ => True

/-- Two registers with the high word first. -/
def highLow (img : List Word) (p : Nat) : Option Nat :=
  match img[p]?, img[p + 1]? with
  | some hi, some lo => some (hi.toNat * 65536 + lo.toNat)
  | _, _ => none

/-- The images agree in the data of channel `ch` of a module at bit `pos`: its bit, its register, or
the registers of the counter and the bits of the status that have a meaning. Counter durations from
`0x07FFFFFF` on all mean that there is none. -/
def SameInput (t : ModuleType) (img img' : List Word) (pos ch : Nat) : Prop :=
  match t with
  | .UR20_4DI_P | .UR20_8DI_P_2W => bitAt img (pos + ch) = bitAt img' (pos + ch)
  | .UR20_2FCNT_100 =>
    highLow img (pos / 16 + 4 * ch + 2) = highLow img' (pos / 16 + 4 * ch + 2) ∧
    img[pos / 16 + 8 + ch]?.map (·.getLsbD 8) = img'[pos / 16 + 8 + ch]?.map (·.getLsbD 8) ∧
    (highLow img (pos / 16 + 4 * ch) = highLow img' (pos / 16 + 4 * ch) ∨
      ∃ n n', highLow img (pos / 16 + 4 * ch) = some n ∧ highLow img' (pos / 16 + 4 * ch) = some n' ∧
        0x07FFFFFF ≤ n ∧ 0x07FFFFFF ≤ n')
  | .UR20_PF_O_1DI_SIL => ∀ k ∈ [0, 2, 3, 4, 5, 8, 10],
    img[pos / 16]?.map (·.getLsbD k) = img'[pos / 16]?.map (·.getLsbD k)
  | _ => img[pos / 16 + ch]? = img'[pos / 16 + ch]?

/-- A register of channel `ch` of an analog module stands for less than another one: resistances are
unsigned, all else is signed, and the register 32767 is no temperature. -/
def InputBelow (t : ModuleType) (par : List Word) (ch : Nat) (w w' : Word) : Prop :=
  match t with
  | .UR20_4AI_UI_12 | .UR20_4AI_UI_16 | .UR20_4AI_UI_16_DIAG | .UR20_8AI_I_16_DIAG_HD =>
    w.toInt < w'.toInt
  | .UR20_4AI_RTD_DIAG => ∃ r f, ParamIs par (1 + 7 * ch) r ∧ rtdExact r = some f ∧ f w < f w'
  | .UR20_4AI_TC_DIAG => w.toInt < w'.toInt ∧
    ((∃ r x, ParamIs par (1 + 7 * ch) r ∧ tcVolts r = some x) ∨ w'.toInt ≠ 32767)
  | _ => False

end Ur20.Spec
