import Verif.Source.FbcTrait
import Verif.Source.Util

/-!
# `src/ur20_8ai_i_16_diag_hd.rs`, translated

Generated by `tools/rust2lean.py` from the source. Do not edit.
-/

set_option linter.unusedVariables false

namespace Ur20.Src.ur20_8ai_i_16_diag_hd

/-- `ModuleParameters`, `src/ur20_8ai_i_16_diag_hd.rs:14-16`. -/
structure ModuleParameters where
  frequencySuppression : FrequencySuppression

/-- `ChannelParameters`, `src/ur20_8ai_i_16_diag_hd.rs:19-24`. -/
structure ChannelParameters where
  channelDiagnostics : Bool
  diagShortCircuit : Bool
  dataFormat : DataFormat
  measurementRange : AnalogIRange

/-- `Mod`, `src/ur20_8ai_i_16_diag_hd.rs:8-11`. -/
structure Mod where
  modParams : ModuleParameters
  chParams : List ChannelParameters

/-- `default`, `src/ur20_8ai_i_16_diag_hd.rs:45-52`. -/
def ChannelParameters.default (oc : Bool) :
    Res ChannelParameters := do
  pure ({ channelDiagnostics := false, diagShortCircuit := false, dataFormat := DataFormat.S7, measurementRange := AnalogIRange.Disabled } : ChannelParameters)

/-- `parameters_from_raw_data`, `src/ur20_8ai_i_16_diag_hd.rs:113-162`. -/
def parameters_from_raw_data (oc : Bool) (data : List Word) :
    Res (ModuleParameters × (List ChannelParameters)) := do
  let _ ← (if decide (data.length < 33) then
        (Res.err Error.bufferLength)
      else
        (pure ()))
  let t1 ← r_index data 0
  let t2 ← (match (FromPrimitive.from_u16 t1 : Option FrequencySuppression) with
      | some x =>
        (pure x)
      | _ =>
        (Res.err Error.channelParameter))
  let module_parameters := ({ frequencySuppression := t2 } : ModuleParameters)
  let t17 := r_map (r_range 0 8)
      (fun i =>
        (do
          let t3 ← ChannelParameters.default oc
          let p := t3
          let t4 ← r_mul oc i 4
          let idx := t4
          let t5 ← r_add oc idx 1
          let t6 ← r_index data t5
          let t7 ← (if t6 == 0 then
                (pure false)
              else if t6 == 1 then
                (pure true)
              else
                (Res.err Error.channelParameter))
          let p := { p with channelDiagnostics := t7 }
          let t8 ← r_add oc idx 2
          let t9 ← r_index data t8
          let t10 ← (if t9 == 0 then
                (pure false)
              else if t9 == 1 then
                (pure true)
              else
                (Res.err Error.channelParameter))
          let p := { p with diagShortCircuit := t10 }
          let t11 ← r_add oc idx 3
          let t12 ← r_index data t11
          let t13 ← (match (FromPrimitive.from_u16 t12 : Option DataFormat) with
              | some f =>
                (pure f)
              | _ =>
                (Res.err Error.channelParameter))
          let p := { p with dataFormat := t13 }
          let t14 ← r_add oc idx 4
          let t15 ← r_index data t14
          let t16 ← (match (FromPrimitive.from_u16 t15 : Option AnalogIRange) with
              | some r =>
                (pure r)
              | _ =>
                (Res.err Error.channelParameter))
          let p := { p with measurementRange := t16 }
          pure p))
  let channel_parameters ← r_capture (r_collect t17)
  let t18 ← r_release channel_parameters
  pure (module_parameters, t18)

/-- `from_modbus_parameter_data`, `src/ur20_8ai_i_16_diag_hd.rs:27-33`. -/
def Mod.from_modbus_parameter_data (oc : Bool) (data : List Word) :
    Res Mod := do
  let t1 ← parameters_from_raw_data oc data
  let (mod_params, ch_params) := t1
  pure ({ modParams := mod_params, chParams := ch_params } : Mod)

/-- `default`, `src/ur20_8ai_i_16_diag_hd.rs:37-41`. -/
def ModuleParameters.default (oc : Bool) :
    Res ModuleParameters := do
  pure ({ frequencySuppression := FrequencySuppression.Disabled } : ModuleParameters)

/-- `default`, `src/ur20_8ai_i_16_diag_hd.rs:56-65`. -/
def Mod.default (oc : Bool) :
    Res Mod := do
  let t2 := r_map (r_range 0 8)
      (fun _ =>
        (do
          let t1 ← ChannelParameters.default oc
          pure t1))
  let t3 ← r_collect t2
  let ch_params := t3
  let t4 ← ModuleParameters.default oc
  let mod_params := t4
  pure ({ modParams := mod_params, chParams := ch_params } : Mod)

/-- `module_type`, `src/ur20_8ai_i_16_diag_hd.rs:69-71`. -/
def Mod.module_type (oc : Bool) (self : Mod) :
    Res ModuleType := do
  pure ModuleType.UR20_8AI_I_16_DIAG_HD

/-- `process_input_byte_count`, `src/ur20_8ai_i_16_diag_hd.rs:75-77`. -/
def Mod.process_input_byte_count (oc : Bool) (self : Mod) :
    Res Nat := do
  pure 16

/-- `process_output_byte_count`, `src/ur20_8ai_i_16_diag_hd.rs:78-80`. -/
def Mod.process_output_byte_count (oc : Bool) (self : Mod) :
    Res Nat := do
  pure 0

/-- `process_input_data`, `src/ur20_8ai_i_16_diag_hd.rs:81-110`. -/
def Mod.process_input_data (oc : Bool) (self : Mod) (data : List Word) :
    Res (List ChannelValue) := do
  let _ ← (if data.length != 8 then
        (Res.err Error.bufferLength)
      else
        (pure ()))
  let _ ← (if self.chParams.length != 8 then
        (Res.err Error.channelParameter)
      else
        (pure ()))
  let t4 := r_map (r_range 0 8)
      (fun i =>
        (do
          let t1 ← r_index data i
          let t2 ← r_index self.chParams i
          let t3 ← r_index self.chParams i
          pure ((r_from (r_as t1 : I16) : F32), t2.measurementRange, t3.dataFormat)))
  let t11 := r_map t4
      (fun (val, range, format) =>
        (do
          let t5 ← lib.DataFormat.factor oc format
          let factor := t5
          (match range with
          | AnalogIRange.mA0To20 =>
            (do
              let t6 ← r_mul oc val (F32.lit 20)
              let t7 ← r_div oc t6 factor
              pure (ChannelValue.decimal32 t7))
          | AnalogIRange.mA4To20 =>
            (do
              let t8 ← r_mul oc val (F32.lit 16)
              let t9 ← r_div oc t8 factor
              let t10 ← r_add oc t9 (F32.lit 4)
              pure (ChannelValue.decimal32 t10))
          | AnalogIRange.Disabled =>
            (pure ChannelValue.disabled))))
  let t12 ← r_collect t11
  let res := t12
  pure res

/-- The trait object of a module, `src/ur20_8ai_i_16_diag_hd.rs:74-111`. -/
instance : ToDyn Mod where
  toDyn oc self := {
    module_type := Mod.module_type oc self
    process_input_byte_count := Mod.process_input_byte_count oc self
    process_output_byte_count := Mod.process_output_byte_count oc self
    process_input_data := Mod.process_input_data oc self
    process_output_data := ur20_fbc_mod_tcp.ProcessModbusTcpData.process_output_data oc (Mod.module_type oc self)
    process_output_values := ur20_fbc_mod_tcp.ProcessModbusTcpData.process_output_values oc (Mod.module_type oc self) }

end Ur20.Src.ur20_8ai_i_16_diag_hd
