import Verif.Model.Analog
import Verif.Model.Digital

/-!
# Analog output modules

`src/ur20_4ao_ui_16.rs` and `src/ur20_4ao_ui_16_diag.rs`.
-/

namespace Ur20

/-- The conversion of one decoded analog value to a channel value,
`src/ur20_4ao_ui_16.rs:71-74`, `src/ur20_4ao_ui_16_diag.rs:73-76`,
`src/ur20_ai_ui_generic.rs:127-130`, `src/ur20_4ai_ui_16_diag.rs:99-102`,
`src/ur20_4ai_rtd_diag.rs:99-102`. -/
def decimalOrDisabled : Option F32 → ChannelValue
  | some v => .decimal32 v
  | none => .disabled

/-- `value_to_u16`, `src/ur20_4ao_ui_16.rs:100-106` and, identically,
`src/ur20_4ao_ui_16_diag.rs:102-108`. -/
def valueToU16 (v : ChannelValue) (range : AnalogUIRange) (format : DataFormat) : Res Word :=
  match v with
  | .decimal32 v => .ok (analogUiValueToU16 v range format)
  | .disabled => .ok 0#16
  | _ => .err .channelValue

/-! UR20-4AO-UI-16, `src/ur20_4ao_ui_16.rs`. -/
namespace Ao

/-- `src/ur20_4ao_ui_16.rs:13-17`. -/
structure ChannelParameters where
  dataFormat : DataFormat
  outputRange : AnalogUIRange
  substituteValue : F32
  deriving DecidableEq, Repr

/-- `src/ur20_4ao_ui_16.rs:8-10`. -/
structure Mod where
  chParams : List ChannelParameters
  deriving DecidableEq, Repr

/-- The closure of `parameters_from_raw_data`, `src/ur20_4ao_ui_16.rs:114-139`. -/
def channelFromRawData (data : List Word) (i : Nat) : Res ChannelParameters := do
  let k := i * 3
  let fmt ← codeParam DataFormat.fromU16 (← idx data k)
  let rng ← codeParam AnalogUIRange.fromU16 (← idx data (k + 1))
  let w ← idx data (k + 2)
  pure ⟨fmt, rng, (u16ToAnalogUiValue w rng fmt).getD (F32.lit 0)⟩

/-- `parameters_from_raw_data`, `src/ur20_4ao_ui_16.rs:108-142`. -/
def parametersFromRawData (data : List Word) : Res (List ChannelParameters) :=
  if data.length < 12 then .err .bufferLength
  else mapRes (channelFromRawData data) (List.range 4)

/-- `from_modbus_parameter_data`, `src/ur20_4ao_ui_16.rs:19-24`. -/
def fromModbusParameterData (data : List Word) : Res Mod := do
  let p ← parametersFromRawData data
  pure ⟨p⟩

/-- `process_output_data`, `src/ur20_4ao_ui_16.rs:56-77`. `self.ch_params[i]` panics when there
are fewer than four channel parameters. -/
def Mod.processOutputData (m : Mod) (data : List Word) : Res (List ChannelValue) :=
  if data.length ≠ 4 then .err .bufferLength
  else mapRes (fun (p : Word × Nat) => do
    let c ← idx m.chParams p.2
    pure (decimalOrDisabled (u16ToAnalogUiValue p.1 c.outputRange c.dataFormat))) data.zipIdx

/-- `process_output_values`, `src/ur20_4ao_ui_16.rs:78-97`. -/
def Mod.processOutputValues (m : Mod) (values : List ChannelValue) : Res (List Word) :=
  if values.length ≠ 4 then .err .channelValue
  else if m.chParams.length ≠ 4 then .err .channelParameter
  else mapRes (fun (p : ChannelValue × Nat) => do
    let c ← idx m.chParams p.2
    valueToU16 p.1 c.outputRange c.dataFormat) values.zipIdx

end Ao

/-! UR20-4AO-UI-16-DIAG, `src/ur20_4ao_ui_16_diag.rs`. -/
namespace AoDiag

/-- `src/ur20_4ao_ui_16_diag.rs:13-18`. -/
structure ChannelParameters where
  dataFormat : DataFormat
  outputRange : AnalogUIRange
  substituteValue : F32
  channelDiagnostics : Bool
  deriving DecidableEq, Repr

/-- `src/ur20_4ao_ui_16_diag.rs:8-10`. -/
structure Mod where
  chParams : List ChannelParameters
  deriving DecidableEq, Repr

/-- The closure of `parameters_from_raw_data`, `src/ur20_4ao_ui_16_diag.rs:116-138`. -/
def channelFromRawData (data : List Word) (i : Nat) : Res ChannelParameters := do
  let k := i * 4
  let fmt ← codeParam DataFormat.fromU16 (← idx data k)
  let rng ← codeParam AnalogUIRange.fromU16 (← idx data (k + 1))
  let w ← idx data (k + 2)
  let diag ← boolParam (← idx data (k + 3))
  pure ⟨fmt, rng, (u16ToAnalogUiValue w rng fmt).getD (F32.lit 0), diag⟩

/-- `parameters_from_raw_data`, `src/ur20_4ao_ui_16_diag.rs:110-141`. -/
def parametersFromRawData (data : List Word) : Res (List ChannelParameters) :=
  if data.length < 16 then .err .bufferLength
  else mapRes (channelFromRawData data) (List.range 4)

/-- `from_modbus_parameter_data`, `src/ur20_4ao_ui_16_diag.rs:20-25`. -/
def fromModbusParameterData (data : List Word) : Res Mod := do
  let p ← parametersFromRawData data
  pure ⟨p⟩

/-- `process_output_data`, `src/ur20_4ao_ui_16_diag.rs:58-79`. -/
def Mod.processOutputData (m : Mod) (data : List Word) : Res (List ChannelValue) :=
  if data.length ≠ 4 then .err .bufferLength
  else mapRes (fun (p : Word × Nat) => do
    let c ← idx m.chParams p.2
    pure (decimalOrDisabled (u16ToAnalogUiValue p.1 c.outputRange c.dataFormat))) data.zipIdx

/-- `process_output_values`, `src/ur20_4ao_ui_16_diag.rs:80-99`. -/
def Mod.processOutputValues (m : Mod) (values : List ChannelValue) : Res (List Word) :=
  if values.length ≠ 4 then .err .channelValue
  else if m.chParams.length ≠ 4 then .err .channelParameter
  else mapRes (fun (p : ChannelValue × Nat) => do
    let c ← idx m.chParams p.2
    valueToU16 p.1 c.outputRange c.dataFormat) values.zipIdx

end AoDiag

end Ur20
