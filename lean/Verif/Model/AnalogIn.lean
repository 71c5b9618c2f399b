import Verif.Model.AnalogOut

/-!
# Analog input modules

`src/ur20_ai_ui_generic.rs`, `src/ur20_4ai_ui_16_diag.rs`, `src/ur20_8ai_i_16_diag_hd.rs`,
`src/ur20_4ai_rtd_diag.rs`, `src/ur20_4ai_tc_diag.rs`.
-/

namespace Ur20

/-! Generic analog input modules UR20-4AI-UI-12 and UR20-4AI-UI-16,
`src/ur20_ai_ui_generic.rs`. -/
namespace Ai

/-- `make_variants!`, `src/ur20_ai_ui_generic.rs:30-33`. -/
inductive Variant where
  | UR20_4AI_UI_12
  | UR20_4AI_UI_16
  deriving DecidableEq, Repr

/-- `Variant::MODULE_TYPE`, `src/ur20_ai_ui_generic.rs:23-25`. -/
def Variant.moduleType : Variant → ModuleType
  | .UR20_4AI_UI_12 => .UR20_4AI_UI_12
  | .UR20_4AI_UI_16 => .UR20_4AI_UI_16

/-- `src/ur20_ai_ui_generic.rs:48-51`. -/
structure ChannelParameters where
  dataFormat : DataFormat
  measurementRange : AnalogUIRange
  deriving DecidableEq, Repr

/-- `src/ur20_ai_ui_generic.rs:36-45`; the phantom type parameter is a field. -/
structure Mod where
  variant : Variant
  frequencySuppression : FrequencySuppression
  chParams : List ChannelParameters
  deriving DecidableEq, Repr

/-- The closure of `parameters_from_raw_data`, `src/ur20_ai_ui_generic.rs:151-159`. -/
def channelFromRawData (data : List Word) (i : Nat) : Res ChannelParameters := do
  let k := i * 2
  let fmt ← codeParam DataFormat.fromU16 (← idx data (k + 1))
  let rng ← codeParam AnalogUIRange.fromU16 (← idx data (k + 2))
  pure ⟨fmt, rng⟩

/-- `parameters_from_raw_data`, `src/ur20_ai_ui_generic.rs:137-162`. -/
def parametersFromRawData (v : Variant) (data : List Word) :
    Res (FrequencySuppression × List ChannelParameters) :=
  if data.length < 1 + 2 * v.moduleType.channelCount then .err .bufferLength
  else do
    let fs ← codeParam FrequencySuppression.fromU16 (← idx data 0)
    let cs ← mapRes (channelFromRawData data) (List.range v.moduleType.channelCount)
    pure (fs, cs)

/-- `from_modbus_parameter_data`, `src/ur20_ai_ui_generic.rs:53-62`. -/
def fromModbusParameterData (v : Variant) (data : List Word) : Res Mod := do
  let p ← parametersFromRawData v data
  pure ⟨v, p.1, p.2⟩

/-- `module_type`, `src/ur20_ai_ui_generic.rs:95-99`: the same type for both variants. -/
def Mod.moduleType (_ : Mod) : ModuleType := .UR20_4AI_UI_12

/-- `process_input_byte_count`, `src/ur20_ai_ui_generic.rs:102-105`. -/
def Mod.inputByteCount (m : Mod) : Nat := 2 * m.variant.moduleType.channelCount

/-- `process_input_data`, `src/ur20_ai_ui_generic.rs:109-134`. -/
def Mod.processInputData (m : Mod) (data : List Word) : Res (List ChannelValue) :=
  if data.length ≠ m.variant.moduleType.channelCount then .err .bufferLength
  else if m.chParams.length ≠ m.variant.moduleType.channelCount then .err .channelParameter
  else mapRes (fun i => do
    let w ← idx data i
    let c ← idx m.chParams i
    pure (decimalOrDisabled (u16ToAnalogUiValue w c.measurementRange c.dataFormat)))
    (List.range m.variant.moduleType.channelCount)

end Ai

/-! UR20-4AI-UI-16-DIAG, `src/ur20_4ai_ui_16_diag.rs`. -/
namespace AiDiag

/-- `src/ur20_4ai_ui_16_diag.rs:19-25`. -/
structure ChannelParameters where
  channelDiagnostics : Bool
  diagShortCircuit : Bool
  diagLineBreak : Bool
  dataFormat : DataFormat
  measurementRange : AnalogUIRange
  deriving DecidableEq, Repr

/-- `src/ur20_4ai_ui_16_diag.rs:8-16`. -/
structure Mod where
  frequencySuppression : FrequencySuppression
  chParams : List ChannelParameters
  deriving DecidableEq, Repr

/-- The closure of `parameters_from_raw_data`, `src/ur20_4ai_ui_16_diag.rs:127-162`. -/
def channelFromRawData (data : List Word) (i : Nat) : Res ChannelParameters := do
  let k := i * 5
  let cd ← boolParam (← idx data (k + 1))
  let sc ← boolParam (← idx data (k + 2))
  let lb ← boolParam (← idx data (k + 3))
  let fmt ← codeParam DataFormat.fromU16 (← idx data (k + 4))
  let rng ← codeParam AnalogUIRange.fromU16 (← idx data (k + 5))
  pure ⟨cd, sc, lb, fmt, rng⟩

/-- `parameters_from_raw_data`, `src/ur20_4ai_ui_16_diag.rs:115-165`. -/
def parametersFromRawData (data : List Word) :
    Res (FrequencySuppression × List ChannelParameters) :=
  if data.length < 21 then .err .bufferLength
  else do
    let fs ← codeParam FrequencySuppression.fromU16 (← idx data 0)
    let cs ← mapRes (channelFromRawData data) (List.range 4)
    pure (fs, cs)

/-- `from_modbus_parameter_data`, `src/ur20_4ai_ui_16_diag.rs:27-35`. -/
def fromModbusParameterData (data : List Word) : Res Mod := do
  let p ← parametersFromRawData data
  pure ⟨p.1, p.2⟩

/-- `process_input_data`, `src/ur20_4ai_ui_16_diag.rs:81-106`. -/
def Mod.processInputData (m : Mod) (data : List Word) : Res (List ChannelValue) :=
  if data.length ≠ 4 then .err .bufferLength
  else if m.chParams.length ≠ 4 then .err .channelParameter
  else mapRes (fun i => do
    let w ← idx data i
    let c ← idx m.chParams i
    pure (decimalOrDisabled (u16ToAnalogUiValue w c.measurementRange c.dataFormat)))
    (List.range 4)

/-- `process_output_data`, `src/ur20_4ai_ui_16_diag.rs:107-112`. -/
def Mod.processOutputData (_ : Mod) (data : List Word) : Res (List ChannelValue) :=
  if !data.isEmpty then .err .bufferLength
  else .ok ((List.range 4).map fun _ => .none)

end AiDiag

/-! UR20-8AI-I-16-DIAG-HD, `src/ur20_8ai_i_16_diag_hd.rs`. -/
namespace AiI

/-- `src/ur20_8ai_i_16_diag_hd.rs:19-24`. -/
structure ChannelParameters where
  channelDiagnostics : Bool
  diagShortCircuit : Bool
  dataFormat : DataFormat
  measurementRange : AnalogIRange
  deriving DecidableEq, Repr

/-- `src/ur20_8ai_i_16_diag_hd.rs:8-16`. -/
structure Mod where
  frequencySuppression : FrequencySuppression
  chParams : List ChannelParameters
  deriving DecidableEq, Repr

/-- The closure of `parameters_from_raw_data`, `src/ur20_8ai_i_16_diag_hd.rs:125-159`. -/
def channelFromRawData (data : List Word) (i : Nat) : Res ChannelParameters := do
  let k := i * 4
  let cd ← boolParam (← idx data (k + 1))
  let sc ← boolParam (← idx data (k + 2))
  let fmt ← codeParam DataFormat.fromU16 (← idx data (k + 3))
  let rng ← codeParam AnalogIRange.fromU16 (← idx data (k + 4))
  pure ⟨cd, sc, fmt, rng⟩

/-- `parameters_from_raw_data`, `src/ur20_8ai_i_16_diag_hd.rs:113-162`. -/
def parametersFromRawData (data : List Word) :
    Res (FrequencySuppression × List ChannelParameters) :=
  if data.length < 33 then .err .bufferLength
  else do
    let fs ← codeParam FrequencySuppression.fromU16 (← idx data 0)
    let cs ← mapRes (channelFromRawData data) (List.range 8)
    pure (fs, cs)

/-- `from_modbus_parameter_data`, `src/ur20_8ai_i_16_diag_hd.rs:26-34`. -/
def fromModbusParameterData (data : List Word) : Res Mod := do
  let p ← parametersFromRawData data
  pure ⟨p.1, p.2⟩

/-- The conversion of one value, `src/ur20_8ai_i_16_diag_hd.rs:93-107`. -/
def value (w : Word) (range : AnalogIRange) (format : DataFormat) : ChannelValue :=
  let val := wordToF32 w
  let factor := format.factor
  match range with
  | .mA0To20 => .decimal32 (val * F32.lit 20 / factor)
  | .mA4To20 => .decimal32 (val * F32.lit 16 / factor + F32.lit 4)
  | .Disabled => .disabled

/-- `process_input_data`, `src/ur20_8ai_i_16_diag_hd.rs:81-110`. -/
def Mod.processInputData (m : Mod) (data : List Word) : Res (List ChannelValue) :=
  if data.length ≠ 8 then .err .bufferLength
  else if m.chParams.length ≠ 8 then .err .channelParameter
  else mapRes (fun i => do
    let w ← idx data i
    let c ← idx m.chParams i
    pure (value w c.measurementRange c.dataFormat)) (List.range 8)

end AiI

/-! UR20-4AI-RTD-DIAG, `src/ur20_4ai_rtd_diag.rs`. -/
namespace Rtd

/-- `src/ur20_4ai_rtd_diag.rs:19-29`. -/
structure ChannelParameters where
  measurementRange : RtdRange
  connectionType : ConnectionType
  conversionTime : ConversionTime
  channelDiagnostics : Bool
  limitValueMonitoring : Bool
  highLimitValue : Int
  lowLimitValue : Int
  deriving DecidableEq, Repr

/-- `src/ur20_4ai_rtd_diag.rs:8-16`. -/
structure Mod where
  temperatureUnit : TemperatureUnit
  chParams : List ChannelParameters
  deriving DecidableEq, Repr

/-- The closure of `parameters_from_raw_data`, `src/ur20_4ai_rtd_diag.rs:122-167`. `as i16` is
the two's complement value. -/
def channelFromRawData (data : List Word) (i : Nat) : Res ChannelParameters := do
  let k := i * 7
  let rng ← codeParam RtdRange.fromU16 (← idx data (k + 1))
  let ct ← codeParam ConnectionType.fromU16 (← idx data (k + 2))
  let cv ← codeParam ConversionTime.fromU16 (← idx data (k + 3))
  let cd ← boolParam (← idx data (k + 4))
  let lm ← boolParam (← idx data (k + 5))
  let hi ← idx data (k + 6)
  let lo ← idx data (k + 7)
  pure ⟨rng, ct, cv, cd, lm, hi.toInt, lo.toInt⟩

/-- `parameters_from_raw_data`, `src/ur20_4ai_rtd_diag.rs:108-170`. -/
def parametersFromRawData (data : List Word) : Res (TemperatureUnit × List ChannelParameters) :=
  if data.length < 29 then .err .bufferLength
  else do
    let tu ← codeParam TemperatureUnit.fromU16 (← idx data 0)
    let cs ← mapRes (channelFromRawData data) (List.range 4)
    pure (tu, cs)

/-- `from_modbus_parameter_data`, `src/ur20_4ai_rtd_diag.rs:31-39`. -/
def fromModbusParameterData (data : List Word) : Res Mod := do
  let p ← parametersFromRawData data
  pure ⟨p.1, p.2⟩

/-- `process_input_data`, `src/ur20_4ai_rtd_diag.rs:89-105`. -/
def Mod.processInputData (m : Mod) (data : List Word) : Res (List ChannelValue) :=
  if data.length ≠ 4 then .err .bufferLength
  else if m.chParams.length ≠ 4 then .err .channelParameter
  else mapRes (fun i => do
    let w ← idx data i
    let c ← idx m.chParams i
    pure (decimalOrDisabled (u16ToRtdValue w c.measurementRange))) (List.range 4)

end Rtd

/-! UR20-4AI-TC-DIAG, `src/ur20_4ai_tc_diag.rs`. -/
namespace Tc

/-- `src/ur20_4ai_tc_diag.rs:30-38`. -/
structure ChannelParameters where
  measurementRange : TcRange
  coldJunctionCompensation : ColdJunctionCompensation
  conversionTime : ConversionTime
  channelDiagnostics : Bool
  limitValueMonitoring : Bool
  highLimitValue : Int
  lowLimitValue : Int
  deriving DecidableEq, Repr

/-- `is_enabled`, `src/ur20_4ai_tc_diag.rs:40-44`. -/
def ChannelParameters.isEnabled (c : ChannelParameters) : Bool :=
  c.measurementRange != .Disabled

/-- `src/ur20_4ai_tc_diag.rs:13-27`. `ch_params` is the array `[ChannelParameters; 4]`. -/
structure Mod where
  temperatureUnit : TemperatureUnit
  chParams : Vector ChannelParameters 4
  deriving DecidableEq

/-- The closure of `parameters_from_raw_data`, `src/ur20_4ai_tc_diag.rs:166-190`. -/
def channelFromChunk (data : List Word) : Res ChannelParameters := do
  let rng ← codeParam TcRange.fromU16 (← idx data 0)
  let cj ← codeParam ColdJunctionCompensation.fromU16 (← idx data 1)
  let cv ← codeParam ConversionTime.fromU16 (← idx data 2)
  let cd ← boolParam (← idx data 3)
  let lm ← boolParam (← idx data 4)
  let hi ← idx data 5
  let lo ← idx data 6
  pure ⟨rng, cj, cv, cd, lm, hi.toInt, lo.toInt⟩

/-- `chunks_exact(7)`: the complete chunks of seven words, the remainder is dropped. -/
def chunksExact7 : List Word → List (List Word)
  | a :: b :: c :: d :: e :: f :: g :: l => [a, b, c, d, e, f, g] :: chunksExact7 l
  | _ => []

/-- `Vec<ChannelParameters>::try_into::<[ChannelParameters; 4]>().expect(..)`,
`src/ur20_4ai_tc_diag.rs:192-194`: panics unless there are exactly four elements. -/
def toArray4 (l : List ChannelParameters) : Res (Vector ChannelParameters 4) :=
  match l with
  | [a, b, c, d] => .ok #v[a, b, c, d]
  | _ => .panic

/-- `parameters_from_raw_data`, `src/ur20_4ai_tc_diag.rs:155-197`. -/
def parametersFromRawData (data : List Word) :
    Res (TemperatureUnit × Vector ChannelParameters 4) :=
  if data.length < 1 + 4 * 7 then .err .bufferLength
  else do
    let tu ← codeParam TemperatureUnit.fromU16 (← idx data 0)
    let cs ← mapRes channelFromChunk (chunksExact7 (data.drop 1))
    let a ← toArray4 cs
    pure (tu, a)

/-- `from_modbus_parameter_data`, `src/ur20_4ai_tc_diag.rs:115-123`. -/
def fromModbusParameterData (data : List Word) : Res Mod := do
  let p ← parametersFromRawData data
  pure ⟨p.1, p.2⟩

/-- The closure of `process_input_data`, `src/ur20_4ai_tc_diag.rs:140-149`. -/
def value (val : Word) (cfg : ChannelParameters) : ChannelValue :=
  if cfg.isEnabled then
    match u16ToThermalValue val cfg.measurementRange with
    | some v => .decimal32 v
    | none => .none
  else .disabled

/-- `process_input_data`, `src/ur20_4ai_tc_diag.rs:132-152`. -/
def Mod.processInputData (m : Mod) (data : List Word) : Res (List ChannelValue) :=
  if data.length ≠ 4 then .err .bufferLength
  else .ok (List.zipWith value data m.chParams.toList)

end Tc

end Ur20
