import Verif.Spec.Params

/-!
# Specification: the settings a module can have

Which module values are settings of a module of a given type, which of them can be written in 16
bit registers, and the enumerations that have a register code.
-/

namespace Ur20.Spec

/-- `m` is a value of the Rust type that stands for modules of type `t`, with one parameter set per
channel of such a module. -/
def SettingsOf : ModuleType → Module → Prop
  | .UR20_4DI_P, .di m => m.variant = .UR20_4DI_P ∧ m.chParams.length = 4
  | .UR20_8DI_P_2W, .di m => m.variant = .UR20_8DI_P_2W ∧ m.chParams.length = 8
  | .UR20_4DO_P, .dout m => m.variant = .UR20_4DO_P ∧ m.chParams.length = 4
  | .UR20_4DO_P_2A, .dout m => m.variant = .UR20_4DO_P_2A ∧ m.chParams.length = 4
  | .UR20_8DO_P, .dout m => m.variant = .UR20_8DO_P ∧ m.chParams.length = 8
  | .UR20_16DO_P, .do16 => True
  | .UR20_4RO_CO_255, .ro m => m.chParams.length = 4
  | .UR20_4AO_UI_16, .ao m => m.chParams.length = 4
  | .UR20_4AO_UI_16_DIAG, .aoDiag m => m.chParams.length = 4
  | .UR20_4AI_RTD_DIAG, .rtd m => m.chParams.length = 4
  | .UR20_4AI_UI_16_DIAG, .aiDiag m => m.chParams.length = 4
  | .UR20_4AI_UI_12, .ai m => m.variant = .UR20_4AI_UI_12 ∧ m.chParams.length = 4
  | .UR20_4AI_UI_16, .ai m => m.variant = .UR20_4AI_UI_16 ∧ m.chParams.length = 4
  | .UR20_8AI_I_16_DIAG_HD, .aiI m => m.chParams.length = 8
  | .UR20_4AI_TC_DIAG, .tc _ => True
  | .UR20_2FCNT_100, .fcnt m => m.chParams.length = 2
  | .UR20_1COM_232_485_422, .com m => m.chParams.length = 1
  | .UR20_PF_O_1DI_SIL, .sil => True
  | _, _ => False

/-- A signed 16 bit number. -/
def Fits16 (z : Int) : Prop := -32768 ≤ z ∧ z ≤ 32767

/-- A substitute value that some register value stands for. -/
def SubstituteOk (rng : AnalogUIRange) (fmt : DataFormat) (sub : F32) : Prop :=
  if rng = .Disabled then sub = .fin 0 else ∃ w, u16ToAnalogUiValue w rng fmt = some sub

/-- The fields of the module that have a number can be written in a register: limits are signed 16
bit numbers, and substitute values of analog outputs are multiples of the resolution. -/
def Representable : Module → Prop
  | .rtd m => ∀ c ∈ m.chParams, Fits16 c.highLimitValue ∧ Fits16 c.lowLimitValue
  | .tc m => ∀ c ∈ m.chParams.toList, Fits16 c.highLimitValue ∧ Fits16 c.lowLimitValue
  | .ao m => ∀ c ∈ m.chParams, SubstituteOk c.outputRange c.dataFormat c.substituteValue
  | .aoDiag m => ∀ c ∈ m.chParams, SubstituteOk c.outputRange c.dataFormat c.substituteValue
  | _ => True

/-- The registers `ws` say what the settings `m` are: there is one register per field, and every
register holds its field. -/
def Describes (ws : List Word) (m : Module) : Prop :=
  (registers m).length = ws.length ∧
  ∀ (i : Nat) (P : Word → Prop) (w : Word),
    (registers m)[i]? = some P → ws[i]? = some w → P w

/-- A pair of conversions between an enumeration and its register values: every variant has the
code `Spec.code` says, and a register value stands for a variant exactly if it is its code. -/
def Codec {α : Type} [Coded α] (toU16 : α → Option Word) (fromU16 : Word → Option α) : Prop :=
  (∀ v, (toU16 v).map BitVec.toNat = some (code v)) ∧ ∀ v w, fromU16 w = some v ↔ toU16 v = some w

end Ur20.Spec
