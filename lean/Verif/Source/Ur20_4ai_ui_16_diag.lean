import Verif.Source.FbcTrait
import Verif.Source.Util

/-!
# `src/ur20_4ai_ui_16_diag.rs`, translated

Generated by `tools/rust2lean.py` from the source. Do not edit.
-/

set_option linter.unusedVariables false

namespace Ur20.Src.ur20_4ai_ui_16_diag

/-- `ModuleParameters`, `src/ur20_4ai_ui_16_diag.rs:14-16`. -/
structure ModuleParameters where
  frequencySuppression : FrequencySuppression

/-- `ChannelParameters`, `src/ur20_4ai_ui_16_diag.rs:19-25`. -/
structure ChannelParameters where
  channelDiagnostics : Bool
  diagShortCircuit : Bool
  diagLineBreak : Bool
  dataFormat : DataFormat
  measurementRange : AnalogUIRange

/-- `Mod`, `src/ur20_4ai_ui_16_diag.rs:8-11`. -/
structure Mod where
  modParams : ModuleParameters
  chParams : List ChannelParameters

/-- `default`, `src/ur20_4ai_ui_16_diag.rs:46-54`. -/
def ChannelParameters.default (oc : Bool) :
    Res ChannelParameters := do
  pure ({ channelDiagnostics := false, diagShortCircuit := false, diagLineBreak := false, dataFormat := DataFormat.S7, measurementRange := AnalogUIRange.Disabled } : ChannelParameters)

/-- `parameters_from_raw_data`, `src/ur20_4ai_ui_16_diag.rs:115-165`. -/
def parameters_from_raw_data (oc : Bool) (data : List Word) :
    Res (ModuleParameters × (List ChannelParameters)) := do
  let _ ← (if decide (data.length < 21) then
        (Res.err Error.bufferLength)
      else
        (pure ()))
  let t1 ← r_index data 0
  let t2 ← Res.ofOption Error.channelParameter (FromPrimitive.from_u16 t1 : Option FrequencySuppression)
  let frequency_suppression := t2
  let module_parameters := ({ frequencySuppression := frequency_suppression } : ModuleParameters)
  let t20 := r_map (r_range 0 4)
      (fun i =>
        (do
          let t3 ← ChannelParameters.default oc
          let p := t3
          let t4 ← r_mul oc i 5
          let idx := t4
          let t5 ← r_add oc idx 1
          let t6 ← r_index data t5
          let t7 ← (if t6 == 0 then
                (pure false)
              else if t6 == 1 then
                (pure true)
              else
                (Res.err Error.channelParameter))
          let p := { p with channelDiagnostics := t7 }
          let t8 ← r_add oc idx 2
          let t9 ← r_index data t8
          let t10 ← (if t9 == 0 then
                (pure false)
              else if t9 == 1 then
                (pure true)
              else
                (Res.err Error.channelParameter))
          let p := { p with diagShortCircuit := t10 }
          let t11 ← r_add oc idx 3
          let t12 ← r_index data t11
          let t13 ← (if t12 == 0 then
                (pure false)
              else if t12 == 1 then
                (pure true)
              else
                (Res.err Error.channelParameter))
          let p := { p with diagLineBreak := t13 }
          let t14 ← r_add oc idx 4
          let t15 ← r_index data t14
          let t16 ← Res.ofOption Error.channelParameter (FromPrimitive.from_u16 t15 : Option DataFormat)
          let p := { p with dataFormat := t16 }
          let t17 ← r_add oc idx 5
          let t18 ← r_index data t17
          let t19 ← Res.ofOption Error.channelParameter (FromPrimitive.from_u16 t18 : Option AnalogUIRange)
          let p := { p with measurementRange := t19 }
          pure p))
  let channel_parameters ← r_capture (r_collect t20)
  let t21 ← r_release channel_parameters
  pure (module_parameters, t21)

/-- `from_modbus_parameter_data`, `src/ur20_4ai_ui_16_diag.rs:28-34`. -/
def Mod.from_modbus_parameter_data (oc : Bool) (data : List Word) :
    Res Mod := do
  let t1 ← parameters_from_raw_data oc data
  let (mod_params, ch_params) := t1
  pure ({ modParams := mod_params, chParams := ch_params } : Mod)

/-- `default`, `src/ur20_4ai_ui_16_diag.rs:38-42`. -/
def ModuleParameters.default (oc : Bool) :
    Res ModuleParameters := do
  pure ({ frequencySuppression := FrequencySuppression.Disabled } : ModuleParameters)

/-- `default`, `src/ur20_4ai_ui_16_diag.rs:58-65`. -/
def Mod.default (oc : Bool) :
    Res Mod := do
  let t2 := r_map (r_range 0 4)
      (fun _ =>
        (do
          let t1 ← ChannelParameters.default oc
          pure t1))
  let t3 ← r_collect t2
  let ch_params := t3
  let t4 ← ModuleParameters.default oc
  let mod_params := t4
  pure ({ modParams := mod_params, chParams := ch_params } : Mod)

/-- `module_type`, `src/ur20_4ai_ui_16_diag.rs:69-71`. -/
def Mod.module_type (oc : Bool) (self : Mod) :
    Res ModuleType := do
  pure ModuleType.UR20_4AI_UI_16_DIAG

/-- `process_input_byte_count`, `src/ur20_4ai_ui_16_diag.rs:75-77`. -/
def Mod.process_input_byte_count (oc : Bool) (self : Mod) :
    Res Nat := do
  pure 8

/-- `process_output_byte_count`, `src/ur20_4ai_ui_16_diag.rs:78-80`. -/
def Mod.process_output_byte_count (oc : Bool) (self : Mod) :
    Res Nat := do
  pure 0

/-- `process_input_data`, `src/ur20_4ai_ui_16_diag.rs:81-106`. -/
def Mod.process_input_data (oc : Bool) (self : Mod) (data : List Word) :
    Res (List ChannelValue) := do
  let _ ← (if data.length != 4 then
        (Res.err Error.bufferLength)
      else
        (pure ()))
  let _ ← (if self.chParams.length != 4 then
        (Res.err Error.channelParameter)
      else
        (pure ()))
  let t4 := r_map (r_range 0 4)
      (fun i =>
        (do
          let t1 ← r_index data i
          let t2 ← r_index self.chParams i
          let t3 ← r_index self.chParams i
          pure (t1, t2.measurementRange, t3.dataFormat)))
  let t6 := r_map t4
      (fun (val, range, format) =>
        (do
          let t5 ← util.u16_to_analog_ui_value oc val range format
          (match t5 with
          | some v =>
            (pure (ChannelValue.decimal32 v))
          | none =>
            (pure ChannelValue.disabled))))
  let t7 ← r_collect t6
  let res := t7
  pure res

/-- `process_output_data`, `src/ur20_4ai_ui_16_diag.rs:107-112`. -/
def Mod.process_output_data (oc : Bool) (self : Mod) (data : List Word) :
    Res (List ChannelValue) := do
  let _ ← (if !data.isEmpty then
        (Res.err Error.bufferLength)
      else
        (pure ()))
  let t1 := r_map (r_range 0 4)
      (fun _ =>
        (pure ChannelValue.none))
  let t2 ← r_collect t1
  pure t2

/-- The trait object of a module, `src/ur20_4ai_ui_16_diag.rs:74-113`. -/
instance : ToDyn Mod where
  toDyn oc self := {
    module_type := Mod.module_type oc self
    process_input_byte_count := Mod.process_input_byte_count oc self
    process_output_byte_count := Mod.process_output_byte_count oc self
    process_input_data := Mod.process_input_data oc self
    process_output_data := Mod.process_output_data oc self
    process_output_values := ur20_fbc_mod_tcp.ProcessModbusTcpData.process_output_values oc (Mod.module_type oc self) }

end Ur20.Src.ur20_4ai_ui_16_diag
