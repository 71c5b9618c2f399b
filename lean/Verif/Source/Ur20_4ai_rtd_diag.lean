import Verif.Source.FbcTrait
import Verif.Source.Util

/-!
# `src/ur20_4ai_rtd_diag.rs`, translated

Generated by `tools/rust2lean.py` from the source. Do not edit.
-/

set_option linter.unusedVariables false

namespace Ur20.Src.ur20_4ai_rtd_diag

/-- `ModuleParameters`, `src/ur20_4ai_rtd_diag.rs:14-16`. -/
structure ModuleParameters where
  temperatureUnit : TemperatureUnit

/-- `ChannelParameters`, `src/ur20_4ai_rtd_diag.rs:19-29`. -/
structure ChannelParameters where
  measurementRange : RtdRange
  connectionType : ConnectionType
  conversionTime : ConversionTime
  channelDiagnostics : Bool
  limitValueMonitoring : Bool
  highLimitValue : I16
  lowLimitValue : I16

/-- `Mod`, `src/ur20_4ai_rtd_diag.rs:8-11`. -/
structure Mod where
  modParams : ModuleParameters
  chParams : List ChannelParameters

/-- `default`, `src/ur20_4ai_rtd_diag.rs:50-60`. -/
def ChannelParameters.default (oc : Bool) :
    Res ChannelParameters := do
  pure ({ measurementRange := RtdRange.Disabled, connectionType := ConnectionType.TwoWire, conversionTime := ConversionTime.ms80, channelDiagnostics := false, limitValueMonitoring := false, highLimitValue := 0, lowLimitValue := 0 } : ChannelParameters)

/-- `parameters_from_raw_data`, `src/ur20_4ai_rtd_diag.rs:108-170`. -/
def parameters_from_raw_data (oc : Bool) (data : List Word) :
    Res (ModuleParameters × (List ChannelParameters)) := do
  let _ ← (if decide (data.length < 29) then
        (Res.err Error.bufferLength)
      else
        (pure ()))
  let t1 ← r_index data 0
  let t2 ← (match (FromPrimitive.from_u16 t1 : Option TemperatureUnit) with
      | some x =>
        (pure x)
      | _ =>
        (Res.err Error.channelParameter))
  let module_parameters := ({ temperatureUnit := t2 } : ModuleParameters)
  let t24 := r_map (r_range 0 4)
      (fun i =>
        (do
          let t3 ← ChannelParameters.default oc
          let p := t3
          let t4 ← r_mul oc i 7
          let idx := t4
          let t5 ← r_add oc idx 1
          let t6 ← r_index data t5
          let t7 ← (match (FromPrimitive.from_u16 t6 : Option RtdRange) with
              | some x =>
                (pure x)
              | _ =>
                (Res.err Error.channelParameter))
          let p := { p with measurementRange := t7 }
          let t8 ← r_add oc idx 2
          let t9 ← r_index data t8
          let t10 ← (match (FromPrimitive.from_u16 t9 : Option ConnectionType) with
              | some x =>
                (pure x)
              | _ =>
                (Res.err Error.channelParameter))
          let p := { p with connectionType := t10 }
          let t11 ← r_add oc idx 3
          let t12 ← r_index data t11
          let t13 ← (match (FromPrimitive.from_u16 t12 : Option ConversionTime) with
              | some x =>
                (pure x)
              | _ =>
                (Res.err Error.channelParameter))
          let p := { p with conversionTime := t13 }
          let t14 ← r_add oc idx 4
          let t15 ← r_index data t14
          let t16 ← (if t15 == 0 then
                (pure false)
              else if t15 == 1 then
                (pure true)
              else
                (Res.err Error.channelParameter))
          let p := { p with channelDiagnostics := t16 }
          let t17 ← r_add oc idx 5
          let t18 ← r_index data t17
          let t19 ← (if t18 == 0 then
                (pure false)
              else if t18 == 1 then
                (pure true)
              else
                (Res.err Error.channelParameter))
          let p := { p with limitValueMonitoring := t19 }
          let t20 ← r_add oc idx 6
          let t21 ← r_index data t20
          let p := { p with highLimitValue := (r_as t21 : I16) }
          let t22 ← r_add oc idx 7
          let t23 ← r_index data t22
          let p := { p with lowLimitValue := (r_as t23 : I16) }
          pure p))
  let channel_parameters ← r_capture (r_collect t24)
  let t25 ← r_release channel_parameters
  pure (module_parameters, t25)

/-- `from_modbus_parameter_data`, `src/ur20_4ai_rtd_diag.rs:32-38`. -/
def Mod.from_modbus_parameter_data (oc : Bool) (data : List Word) :
    Res Mod := do
  let t1 ← parameters_from_raw_data oc data
  let (mod_params, ch_params) := t1
  pure ({ modParams := mod_params, chParams := ch_params } : Mod)

/-- `default`, `src/ur20_4ai_rtd_diag.rs:42-46`. -/
def ModuleParameters.default (oc : Bool) :
    Res ModuleParameters := do
  pure ({ temperatureUnit := TemperatureUnit.Celsius } : ModuleParameters)

/-- `default`, `src/ur20_4ai_rtd_diag.rs:64-73`. -/
def Mod.default (oc : Bool) :
    Res Mod := do
  let t2 := r_map (r_range 0 4)
      (fun _ =>
        (do
          let t1 ← ChannelParameters.default oc
          pure t1))
  let t3 ← r_collect t2
  let ch_params := t3
  let t4 ← ModuleParameters.default oc
  let mod_params := t4
  pure ({ modParams := mod_params, chParams := ch_params } : Mod)

/-- `module_type`, `src/ur20_4ai_rtd_diag.rs:77-79`. -/
def Mod.module_type (oc : Bool) (self : Mod) :
    Res ModuleType := do
  pure ModuleType.UR20_4AI_RTD_DIAG

/-- `process_input_byte_count`, `src/ur20_4ai_rtd_diag.rs:83-85`. -/
def Mod.process_input_byte_count (oc : Bool) (self : Mod) :
    Res Nat := do
  pure 8

/-- `process_output_byte_count`, `src/ur20_4ai_rtd_diag.rs:86-88`. -/
def Mod.process_output_byte_count (oc : Bool) (self : Mod) :
    Res Nat := do
  pure 0

/-- `process_input_data`, `src/ur20_4ai_rtd_diag.rs:89-105`. -/
def Mod.process_input_data (oc : Bool) (self : Mod) (data : List Word) :
    Res (List ChannelValue) := do
  let _ ← (if data.length != 4 then
        (Res.err Error.bufferLength)
      else
        (pure ()))
  let _ ← (if self.chParams.length != 4 then
        (Res.err Error.channelParameter)
      else
        (pure ()))
  let t3 := r_map (r_range 0 4)
      (fun i =>
        (do
          let t1 ← r_index data i
          let t2 ← r_index self.chParams i
          pure (t1, t2.measurementRange)))
  let t5 := r_map t3
      (fun (val, range) =>
        (do
          let t4 ← util.u16_to_rtd_value oc val range
          (match t4 with
          | some v =>
            (pure (ChannelValue.decimal32 v))
          | none =>
            (pure ChannelValue.disabled))))
  let t6 ← r_collect t5
  let res := t6
  pure res

/-- The trait object of a module, `src/ur20_4ai_rtd_diag.rs:82-106`. -/
instance : ToDyn Mod where
  toDyn oc self := {
    module_type := Mod.module_type oc self
    process_input_byte_count := Mod.process_input_byte_count oc self
    process_output_byte_count := Mod.process_output_byte_count oc self
    process_input_data := Mod.process_input_data oc self
    process_output_data := ur20_fbc_mod_tcp.ProcessModbusTcpData.process_output_data oc (Mod.module_type oc self)
    process_output_values := ur20_fbc_mod_tcp.ProcessModbusTcpData.process_output_values oc (Mod.module_type oc self) }

end Ur20.Src.ur20_4ai_rtd_diag
