import Verif.Source.FbcTrait
import Verif.Source.Util

/-!
# `src/ur20_4ao_ui_16_diag.rs`, translated

Generated by `tools/rust2lean.py` from the source. Do not edit.
-/

set_option linter.unusedVariables false

namespace Ur20.Src.ur20_4ao_ui_16_diag

/-- `ChannelParameters`, `src/ur20_4ao_ui_16_diag.rs:13-18`. -/
structure ChannelParameters where
  dataFormat : DataFormat
  outputRange : AnalogUIRange
  substituteValue : F32
  channelDiagnostics : Bool

/-- `Mod`, `src/ur20_4ao_ui_16_diag.rs:8-10`. -/
structure Mod where
  chParams : List ChannelParameters

/-- `default`, `src/ur20_4ao_ui_16_diag.rs:28-35`. -/
def ChannelParameters.default (oc : Bool) :
    Res ChannelParameters := do
  pure ({ dataFormat := DataFormat.S7, outputRange := AnalogUIRange.Disabled, substituteValue := F32.lit 0, channelDiagnostics := false } : ChannelParameters)

/-- `parameters_from_raw_data`, `src/ur20_4ao_ui_16_diag.rs:110-141`. -/
def parameters_from_raw_data (oc : Bool) (data : List Word) :
    Res (List ChannelParameters) := do
  let _ ← (if decide (data.length < 16) then
        (Res.err Error.bufferLength)
      else
        (pure ()))
  let t14 := r_map (r_range 0 4)
      (fun i =>
        (do
          let t1 ← ChannelParameters.default oc
          let p := t1
          let t2 ← r_mul oc i 4
          let idx := t2
          let t3 ← r_index data idx
          let t4 ← Res.ofOption Error.channelParameter (FromPrimitive.from_u16 t3 : Option DataFormat)
          let p := { p with dataFormat := t4 }
          let t5 ← r_add oc idx 1
          let t6 ← r_index data t5
          let t7 ← Res.ofOption Error.channelParameter (FromPrimitive.from_u16 t6 : Option AnalogUIRange)
          let p := { p with outputRange := t7 }
          let t8 ← r_add oc idx 2
          let t9 ← r_index data t8
          let t10 ← util.u16_to_analog_ui_value oc t9 p.outputRange p.dataFormat
          let p ← (match t10 with
              | some v =>
                (do
                  let p := { p with substituteValue := v }
                  pure p)
              | _ =>
                (pure p))
          let t11 ← r_add oc idx 3
          let t12 ← r_index data t11
          let t13 ← (if t12 == 0 then
                (pure false)
              else if t12 == 1 then
                (pure true)
              else
                (Res.err Error.channelParameter))
          let p := { p with channelDiagnostics := t13 }
          pure p))
  let channel_parameters ← r_capture (r_collect t14)
  r_release channel_parameters

/-- `from_modbus_parameter_data`, `src/ur20_4ao_ui_16_diag.rs:21-24`. -/
def Mod.from_modbus_parameter_data (oc : Bool) (data : List Word) :
    Res Mod := do
  let t1 ← parameters_from_raw_data oc data
  let ch_params := t1
  pure ({ chParams := ch_params } : Mod)

/-- `default`, `src/ur20_4ao_ui_16_diag.rs:39-42`. -/
def Mod.default (oc : Bool) :
    Res Mod := do
  let t2 := r_map (r_range 0 4)
      (fun _ =>
        (do
          let t1 ← ChannelParameters.default oc
          pure t1))
  let t3 ← r_collect t2
  let ch_params := t3
  pure ({ chParams := ch_params } : Mod)

/-- `module_type`, `src/ur20_4ao_ui_16_diag.rs:46-48`. -/
def Mod.module_type (oc : Bool) (self : Mod) :
    Res ModuleType := do
  pure ModuleType.UR20_4AO_UI_16_DIAG

/-- `process_input_byte_count`, `src/ur20_4ao_ui_16_diag.rs:52-54`. -/
def Mod.process_input_byte_count (oc : Bool) (self : Mod) :
    Res Nat := do
  pure 0

/-- `process_output_byte_count`, `src/ur20_4ao_ui_16_diag.rs:55-57`. -/
def Mod.process_output_byte_count (oc : Bool) (self : Mod) :
    Res Nat := do
  pure 8

/-- `process_output_data`, `src/ur20_4ao_ui_16_diag.rs:58-79`. -/
def Mod.process_output_data (oc : Bool) (self : Mod) (data : List Word) :
    Res (List ChannelValue) := do
  let _ ← (if data.length != 4 then
        (Res.err Error.bufferLength)
      else
        (pure ()))
  let t3 := r_map (r_enumerate (r_iter data))
      (fun (i, v) =>
        (do
          let t1 ← r_index self.chParams i
          let t2 ← r_index self.chParams i
          pure (v, t1.outputRange, t2.dataFormat)))
  let t5 := r_map t3
      (fun (v, range, factor) =>
        (do
          let t4 ← util.u16_to_analog_ui_value oc v range factor
          (match t4 with
          | some v =>
            (pure (ChannelValue.decimal32 v))
          | none =>
            (pure ChannelValue.disabled))))
  let t6 ← r_collect t5
  pure t6

/-- `value_to_u16`, `src/ur20_4ao_ui_16_diag.rs:102-108`. -/
def value_to_u16 (oc : Bool) (v : ChannelValue) (range : AnalogUIRange) (format : DataFormat) :
    Res Word := do
  (match v with
  | ChannelValue.decimal32 v =>
    (do
      let t1 ← util.analog_ui_value_to_u16 oc v range format
      pure t1)
  | ChannelValue.disabled =>
    (pure 0)
  | _ =>
    (Res.err Error.channelValue))

/-- `process_output_values`, `src/ur20_4ao_ui_16_diag.rs:80-99`. -/
def Mod.process_output_values (oc : Bool) (self : Mod) (values : List ChannelValue) :
    Res (List Word) := do
  let _ ← (if values.length != 4 then
        (Res.err Error.channelValue)
      else
        (pure ()))
  let _ ← (if self.chParams.length != 4 then
        (Res.err Error.channelParameter)
      else
        (pure ()))
  let t3 := r_map (r_enumerate (r_iter values))
      (fun (i, v) =>
        (do
          let t1 ← r_index self.chParams i
          let t2 ← r_index self.chParams i
          pure (v, t1.outputRange, t2.dataFormat)))
  let t4 := r_map t3
      (fun (v, range, factor) =>
        (value_to_u16 oc v range factor))
  r_collect t4

/-- The trait object of a module, `src/ur20_4ao_ui_16_diag.rs:51-100`. -/
instance : ToDyn Mod where
  toDyn oc self := {
    module_type := Mod.module_type oc self
    process_input_byte_count := Mod.process_input_byte_count oc self
    process_output_byte_count := Mod.process_output_byte_count oc self
    process_input_data := ur20_fbc_mod_tcp.ProcessModbusTcpData.process_input_data oc (Mod.module_type oc self)
    process_output_data := Mod.process_output_data oc self
    process_output_values := Mod.process_output_values oc self }

end Ur20.Src.ur20_4ao_ui_16_diag
