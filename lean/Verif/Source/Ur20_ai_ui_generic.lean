import Verif.Source.FbcTrait
import Verif.Source.Util

/-!
# `src/ur20_ai_ui_generic.rs`, translated

Generated by `tools/rust2lean.py` from the source. Do not edit.
-/

set_option linter.unusedVariables false

namespace Ur20.Src.ur20_ai_ui_generic

/-- `ModuleParameters`, `src/ur20_ai_ui_generic.rs:43-45`. -/
structure ModuleParameters where
  frequencySuppression : FrequencySuppression

/-- `ChannelParameters`, `src/ur20_ai_ui_generic.rs:48-51`. -/
structure ChannelParameters where
  dataFormat : DataFormat
  measurementRange : AnalogUIRange

/-- `Mod`, `src/ur20_ai_ui_generic.rs:36-40`. -/
structure Mod (Variant : ModuleType) where
  modParams : ModuleParameters
  chParams : List ChannelParameters

/-- `default`, `src/ur20_ai_ui_generic.rs:73-78`. -/
def ChannelParameters.default (oc : Bool) :
    Res ChannelParameters := do
  pure ({ dataFormat := DataFormat.S7, measurementRange := AnalogUIRange.Disabled } : ChannelParameters)

/-- `parameters_from_raw_data`, `src/ur20_ai_ui_generic.rs:137-162`. -/
def parameters_from_raw_data (oc : Bool) (Variant : ModuleType) (data : List Word) :
    Res (ModuleParameters × (List ChannelParameters)) := do
  let t1 ← lib.ModuleType.channel_count oc Variant
  let t2 ← r_mul oc 2 t1
  let t3 ← r_add oc 1 t2
  let _ ← (if decide (data.length < t3) then
        (Res.err Error.bufferLength)
      else
        (pure ()))
  let t4 ← r_index data 0
  let t5 ← Res.ofOption Error.channelParameter (FromPrimitive.from_u16 t4 : Option FrequencySuppression)
  let frequency_suppression := t5
  let module_parameters := ({ frequencySuppression := frequency_suppression } : ModuleParameters)
  let t6 ← lib.ModuleType.channel_count oc Variant
  let t15 := r_map (r_range 0 t6)
      (fun i =>
        (do
          let t7 ← ChannelParameters.default oc
          let p := t7
          let t8 ← r_mul oc i 2
          let idx := t8
          let t9 ← r_add oc idx 1
          let t10 ← r_index data t9
          let t11 ← Res.ofOption Error.channelParameter (FromPrimitive.from_u16 t10 : Option DataFormat)
          let p := { p with dataFormat := t11 }
          let t12 ← r_add oc idx 2
          let t13 ← r_index data t12
          let t14 ← Res.ofOption Error.channelParameter (FromPrimitive.from_u16 t13 : Option AnalogUIRange)
          let p := { p with measurementRange := t14 }
          pure p))
  let channel_parameters ← r_capture (r_collect t15)
  let t16 ← r_release channel_parameters
  pure (module_parameters, t16)

/-- `from_modbus_parameter_data`, `src/ur20_ai_ui_generic.rs:54-61`. -/
def Mod.from_modbus_parameter_data (oc : Bool) (Variant : ModuleType) (data : List Word) :
    Res (Mod Variant) := do
  let t1 ← parameters_from_raw_data oc Variant data
  let (mod_params, ch_params) := t1
  pure ({ modParams := mod_params, chParams := ch_params } : Mod Variant)

/-- `default`, `src/ur20_ai_ui_generic.rs:65-69`. -/
def ModuleParameters.default (oc : Bool) :
    Res ModuleParameters := do
  pure ({ frequencySuppression := FrequencySuppression.Disabled } : ModuleParameters)

/-- `default`, `src/ur20_ai_ui_generic.rs:82-92`. -/
def Mod.default (oc : Bool) (Variant : ModuleType) :
    Res (Mod Variant) := do
  let t1 ← lib.ModuleType.channel_count oc Variant
  let t3 := r_map (r_range 0 t1)
      (fun _ =>
        (do
          let t2 ← ChannelParameters.default oc
          pure t2))
  let t4 ← r_collect t3
  let ch_params := t4
  let t5 ← ModuleParameters.default oc
  let mod_params := t5
  pure ({ modParams := mod_params, chParams := ch_params } : Mod Variant)

/-- `module_type`, `src/ur20_ai_ui_generic.rs:96-98`. -/
def Mod.module_type (oc : Bool) (Variant : ModuleType) (self : Mod Variant) :
    Res ModuleType := do
  pure ModuleType.UR20_4AI_UI_12

/-- `process_input_byte_count`, `src/ur20_ai_ui_generic.rs:102-105`. -/
def Mod.process_input_byte_count (oc : Bool) (Variant : ModuleType) (self : Mod Variant) :
    Res Nat := do
  let t1 ← lib.ModuleType.channel_count oc Variant
  let t2 ← r_mul oc 2 t1
  pure t2

/-- `process_output_byte_count`, `src/ur20_ai_ui_generic.rs:106-108`. -/
def Mod.process_output_byte_count (oc : Bool) (Variant : ModuleType) (self : Mod Variant) :
    Res Nat := do
  pure 0

/-- `process_input_data`, `src/ur20_ai_ui_generic.rs:109-134`. -/
def Mod.process_input_data (oc : Bool) (Variant : ModuleType) (self : Mod Variant) (data : List Word) :
    Res (List ChannelValue) := do
  let t1 ← lib.ModuleType.channel_count oc Variant
  let _ ← (if data.length != t1 then
        (Res.err Error.bufferLength)
      else
        (pure ()))
  let t2 ← lib.ModuleType.channel_count oc Variant
  let _ ← (if self.chParams.length != t2 then
        (Res.err Error.channelParameter)
      else
        (pure ()))
  let t3 ← lib.ModuleType.channel_count oc Variant
  let t7 := r_map (r_range 0 t3)
      (fun i =>
        (do
          let t4 ← r_index data i
          let t5 ← r_index self.chParams i
          let t6 ← r_index self.chParams i
          pure (t4, t5.measurementRange, t6.dataFormat)))
  let t9 := r_map t7
      (fun (val, range, format) =>
        (do
          let t8 ← util.u16_to_analog_ui_value oc val range format
          (match t8 with
          | some v =>
            (pure (ChannelValue.decimal32 v))
          | none =>
            (pure ChannelValue.disabled))))
  let t10 ← r_collect t9
  let res := t10
  pure res

/-- The trait object of a module, `src/ur20_ai_ui_generic.rs:101-135`. -/
instance {Variant : ModuleType} : ToDyn (Mod Variant) where
  toDyn oc self := {
    module_type := Mod.module_type oc Variant self
    process_input_byte_count := Mod.process_input_byte_count oc Variant self
    process_output_byte_count := Mod.process_output_byte_count oc Variant self
    process_input_data := Mod.process_input_data oc Variant self
    process_output_data := ur20_fbc_mod_tcp.ProcessModbusTcpData.process_output_data oc (Mod.module_type oc Variant self)
    process_output_values := ur20_fbc_mod_tcp.ProcessModbusTcpData.process_output_values oc (Mod.module_type oc Variant self) }

end Ur20.Src.ur20_ai_ui_generic
