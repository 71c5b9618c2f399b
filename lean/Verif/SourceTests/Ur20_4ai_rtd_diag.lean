import Verif.Source.Ur20_4ai_rtd_diag
import Verif.SourceTests.Prelude

/-!
# The unit tests of `src/ur20_4ai_rtd_diag.rs`, translated

Generated by `tools/tests2lean.py` from the source. Do not edit.
-/

set_option linter.unusedVariables false

namespace Ur20.Src.ur20_4ai_rtd_diag

deriving instance DecidableEq for ModuleParameters

deriving instance DecidableEq for ChannelParameters

/-- `test_process_input_data_with_empty_buffer`, `src/ur20_4ai_rtd_diag.rs:179-182`. -/
def rs_test_process_input_data_with_empty_buffer (oc : Bool) : Res Unit := do
  let t1 ← Mod.default oc
  let m := t1
  let t2 ← r_is_err ((ToDyn.toDyn oc m).process_input_data [])
  let _ ← r_assert t2
  pure ()

example : rs_test_process_input_data_with_empty_buffer true = .ok () ∧ rs_test_process_input_data_with_empty_buffer false = .ok () := by
  decide +kernel

/-- `test_process_input_data_with_missing_channel_parameters`, `src/ur20_4ai_rtd_diag.rs:185-191`. -/
def rs_test_process_input_data_with_missing_channel_parameters (oc : Bool) : Res Unit := do
  let t1 ← Mod.default oc
  let m := ({ t1 with chParams := [] } : Mod)
  let t2 ← r_is_err ((ToDyn.toDyn oc m).process_input_data [0, 0, 0, 0])
  let _ ← r_assert t2
  pure ()

example : rs_test_process_input_data_with_missing_channel_parameters true = .ok () ∧ rs_test_process_input_data_with_missing_channel_parameters false = .ok () := by
  decide +kernel

/-- `test_process_input_data_with_disabled_channels`, `src/ur20_4ai_rtd_diag.rs:194-200`. -/
def rs_test_process_input_data_with_disabled_channels (oc : Bool) : Res Unit := do
  let t1 ← Mod.default oc
  let m := t1
  let t2 ← r_unwrap ((ToDyn.toDyn oc m).process_input_data [5, 0, 7, 8])
  let _ ← r_assert (decide (t2 = [ChannelValue.disabled, ChannelValue.disabled, ChannelValue.disabled, ChannelValue.disabled]))
  pure ()

example : rs_test_process_input_data_with_disabled_channels true = .ok () ∧ rs_test_process_input_data_with_disabled_channels false = .ok () := by
  decide +kernel

/-- `test_process_input_data`, `src/ur20_4ai_rtd_diag.rs:203-220`. -/
def rs_test_process_input_data (oc : Bool) : Res Unit := do
  let t1 ← Mod.default oc
  let m := t1
  let t2 ← r_index m.chParams 0
  let t3 ← r_set m.chParams 0 { t2 with measurementRange := RtdRange.R40 }
  let m := { m with chParams := t3 }
  let t4 ← r_index m.chParams 1
  let t5 ← r_set m.chParams 1 { t4 with measurementRange := RtdRange.R40 }
  let m := { m with chParams := t5 }
  let t6 ← r_index m.chParams 2
  let t7 ← r_set m.chParams 2 { t6 with measurementRange := RtdRange.PT100 }
  let m := { m with chParams := t7 }
  let t8 ← r_index m.chParams 3
  let t9 ← r_set m.chParams 3 { t8 with measurementRange := RtdRange.PT1000 }
  let m := { m with chParams := t9 }
  let t10 ← r_unwrap ((ToDyn.toDyn oc m).process_input_data [27648, 32511, 55, 99])
  let _ ← r_assert (decide (t10 = [ChannelValue.decimal32 (F32.lit 40), ChannelValue.decimal32 (F32.lit (4703559 / 100000)), ChannelValue.decimal32 (F32.lit (55 / 10)), ChannelValue.decimal32 (F32.lit (99 / 10))]))
  pure ()

example : rs_test_process_input_data true = .ok () ∧ rs_test_process_input_data false = .ok () := by
  decide +kernel

/-- `test_process_input_data_with_negative_temperatures`, `src/ur20_4ai_rtd_diag.rs:223-232`. -/
def rs_test_process_input_data_with_negative_temperatures (oc : Bool) : Res Unit := do
  let t1 ← Mod.default oc
  let m := t1
  let t2 ← r_index m.chParams 0
  let t3 ← r_set m.chParams 0 { t2 with measurementRange := RtdRange.PT100 }
  let m := { m with chParams := t3 }
  let t4 ← r_index m.chParams 1
  let t5 ← r_set m.chParams 1 { t4 with measurementRange := RtdRange.Cu10 }
  let m := { m with chParams := t5 }
  let t6 ← r_unwrap ((ToDyn.toDyn oc m).process_input_data [63536, 65336, 0, 0])
  let _ ← r_assert (decide (t6 = [ChannelValue.decimal32 (F32.lit (-200)), ChannelValue.decimal32 (F32.lit (-20)), ChannelValue.disabled, ChannelValue.disabled]))
  pure ()

example : rs_test_process_input_data_with_negative_temperatures true = .ok () ∧ rs_test_process_input_data_with_negative_temperatures false = .ok () := by
  decide +kernel

/-- `test_process_input_data_with_underloading`, `src/ur20_4ai_rtd_diag.rs:235-256`. -/
def rs_test_process_input_data_with_underloading (oc : Bool) : Res Unit := do
  let t1 ← Mod.default oc
  let m := t1
  let t2 ← r_index m.chParams 0
  let t3 ← r_set m.chParams 0 { t2 with measurementRange := RtdRange.PT100 }
  let m := { m with chParams := t3 }
  let t4 ← r_index m.chParams 1
  let t5 ← r_set m.chParams 1 { t4 with measurementRange := RtdRange.NI1000 }
  let m := { m with chParams := t5 }
  let t6 ← r_unwrap ((ToDyn.toDyn oc m).process_input_data [(r_as (-2040 : I16) : Word), (r_as (-640 : I16) : Word), 0, 0])
  let input := t6
  let t7 ← r_index input 0
  let _ ← (match t7 with
      | ChannelValue.decimal32 v =>
        (do
          let _ ← r_assert (decide (v = (F32.lit (-204))))
          pure ())
      | _ =>
        (Res.panic))
  let t8 ← r_index input 1
  let _ ← (match t8 with
      | ChannelValue.decimal32 v =>
        (do
          let _ ← r_assert (decide (v = (F32.lit (-64))))
          pure ())
      | _ =>
        (Res.panic))
  pure ()

example : rs_test_process_input_data_with_underloading true = .ok () ∧ rs_test_process_input_data_with_underloading false = .ok () := by
  decide +kernel

/-- `test_process_output_data`, `src/ur20_4ai_rtd_diag.rs:259-266`. -/
def rs_test_process_output_data (oc : Bool) : Res Unit := do
  let t1 ← Mod.default oc
  let m := t1
  let t2 ← r_is_err ((ToDyn.toDyn oc m).process_output_data (List.replicate 4 0))
  let _ ← r_assert t2
  let t3 ← r_unwrap ((ToDyn.toDyn oc m).process_output_data [])
  let _ ← r_assert (decide (t3 = (List.replicate 4 ChannelValue.none)))
  pure ()

example : rs_test_process_output_data true = .ok () ∧ rs_test_process_output_data false = .ok () := by
  decide +kernel

/-- `test_process_output_values`, `src/ur20_4ai_rtd_diag.rs:269-281`. -/
def rs_test_process_output_values (oc : Bool) : Res Unit := do
  let t1 ← Mod.default oc
  let m := t1
  let t2 ← r_is_err ((ToDyn.toDyn oc m).process_output_values [ChannelValue.decimal32 (F32.lit 0)])
  let _ ← r_assert t2
  let t3 ← r_unwrap ((ToDyn.toDyn oc m).process_output_values [])
  let _ ← r_assert (decide (t3 = []))
  let t4 ← r_unwrap ((ToDyn.toDyn oc m).process_output_values (List.replicate 4 ChannelValue.none))
  let _ ← r_assert (decide (t4 = []))
  pure ()

example : rs_test_process_output_values true = .ok () ∧ rs_test_process_output_values false = .ok () := by
  decide +kernel

/-- `test_module_parameters_from_raw_data`, `src/ur20_4ai_rtd_diag.rs:284-308`. -/
def rs_test_module_parameters_from_raw_data (oc : Bool) : Res Unit := do
  let data : List Word := [0, 0, 0, 0, 0, 0, 0, 0, 0, 0, 0, 0, 0, 0, 0, 0, 0, 0, 0, 0, 0, 0, 0, 0, 0, 0, 0, 0, 0]
  let t1 ← r_unwrap (parameters_from_raw_data oc data)
  let _ ← r_assert (decide (t1.1.temperatureUnit = TemperatureUnit.Celsius))
  let t2 ← r_set data 0 1
  let data := t2
  let t3 ← r_unwrap (parameters_from_raw_data oc data)
  let _ ← r_assert (decide (t3.1.temperatureUnit = TemperatureUnit.Fahrenheit))
  let t4 ← r_set data 0 2
  let data := t4
  let t5 ← r_unwrap (parameters_from_raw_data oc data)
  let _ ← r_assert (decide (t5.1.temperatureUnit = TemperatureUnit.Kelvin))
  pure ()

example : rs_test_module_parameters_from_raw_data true = .ok () ∧ rs_test_module_parameters_from_raw_data false = .ok () := by
  decide +kernel

/-- `test_channel_parameters_from_raw_data`, `src/ur20_4ai_rtd_diag.rs:311-354`. -/
def rs_test_channel_parameters_from_raw_data (oc : Bool) : Res Unit := do
  let data : List Word := [0, 18, 0, 2, 0, 0, 0, 0, 5, 1, 0, 0, 0, 0, 0, 0, 0, 1, 0, 0, 0, 0, 0, 0, 0, 1, 1, 32767, 32768]
  let t1 ← r_unwrap (parameters_from_raw_data oc data)
  let _ ← r_assert (decide (t1.2.length = 4))
  let t2 ← r_unwrap (parameters_from_raw_data oc data)
  let t3 ← r_index t2.2 0
  let t4 ← ChannelParameters.default oc
  let _ ← r_assert (decide (t3 = t4))
  let t5 ← r_unwrap (parameters_from_raw_data oc data)
  let t6 ← r_index t5.2 1
  let _ ← r_assert (decide (t6.measurementRange = RtdRange.NI120))
  let t7 ← r_unwrap (parameters_from_raw_data oc data)
  let t8 ← r_index t7.2 1
  let _ ← r_assert (decide (t8.connectionType = ConnectionType.ThreeWire))
  let t9 ← r_unwrap (parameters_from_raw_data oc data)
  let t10 ← r_index t9.2 2
  let _ ← r_assert (decide (t10.conversionTime = ConversionTime.ms130))
  let t11 ← r_unwrap (parameters_from_raw_data oc data)
  let t12 ← r_index t11.2 3
  let _ ← r_assert t12.channelDiagnostics
  let t13 ← r_unwrap (parameters_from_raw_data oc data)
  let t14 ← r_index t13.2 3
  let _ ← r_assert t14.limitValueMonitoring
  let t15 ← r_unwrap (parameters_from_raw_data oc data)
  let t16 ← r_index t15.2 3
  let _ ← r_assert (decide (t16.highLimitValue = (32767 : I16)))
  let t17 ← r_unwrap (parameters_from_raw_data oc data)
  let t18 ← r_index t17.2 3
  let _ ← r_assert (decide (t18.lowLimitValue = (-32768 : I16)))
  pure ()

example : rs_test_channel_parameters_from_raw_data true = .ok () ∧ rs_test_channel_parameters_from_raw_data false = .ok () := by
  decide +kernel

/-- `test_parameters_from_invalid_raw_data`, `src/ur20_4ai_rtd_diag.rs:357-376`. -/
def rs_test_parameters_from_invalid_raw_data (oc : Bool) : Res Unit := do
  let data : List Word := [0, 0, 0, 0, 0, 0, 0, 0, 0, 0, 0, 0, 0, 0, 0, 0, 0, 0, 0, 0, 0, 0, 0, 0, 0, 0, 0, 0, 0]
  let t1 ← r_set data 1 19
  let data := t1
  let t2 ← r_is_err (parameters_from_raw_data oc data)
  let _ ← r_assert t2
  let t3 ← r_set data 1 0
  let data := t3
  let t4 ← r_set data 2 3
  let data := t4
  let t5 ← r_is_err (parameters_from_raw_data oc data)
  let _ ← r_assert t5
  let t6 ← r_set data 2 0
  let data := t6
  let t7 ← r_set data 3 6
  let data := t7
  let t8 ← r_is_err (parameters_from_raw_data oc data)
  let _ ← r_assert t8
  pure ()

example : rs_test_parameters_from_invalid_raw_data true = .ok () ∧ rs_test_parameters_from_invalid_raw_data false = .ok () := by
  decide +kernel

/-- `test_parameters_from_invalid_data_buffer_size`, `src/ur20_4ai_rtd_diag.rs:379-386`. -/
def rs_test_parameters_from_invalid_data_buffer_size (oc : Bool) : Res Unit := do
  let data : List Word := List.replicate 0 0
  let t1 ← r_is_err (parameters_from_raw_data oc data)
  let _ ← r_assert t1
  let data : List Word := List.replicate 28 0
  let t2 ← r_is_err (parameters_from_raw_data oc data)
  let _ ← r_assert t2
  let data : List Word := List.replicate 29 0
  let t3 ← r_is_ok (parameters_from_raw_data oc data)
  let _ ← r_assert t3
  pure ()

example : rs_test_parameters_from_invalid_data_buffer_size true = .ok () ∧ rs_test_parameters_from_invalid_data_buffer_size false = .ok () := by
  decide +kernel

/-- `create_module_from_modbus_parameter_data`, `src/ur20_4ai_rtd_diag.rs:389-401`. -/
def rs_create_module_from_modbus_parameter_data (oc : Bool) : Res Unit := do
  let data : List Word := [0, 1, 0, 0, 0, 0, 0, 0, 18, 0, 0, 0, 0, 0, 0, 0, 0, 0, 0, 0, 0, 0, 0, 0, 0, 0, 0, 0, 0]
  let t1 ← r_unwrap (Mod.from_modbus_parameter_data oc data)
  let module := t1
  let t2 ← r_index module.chParams 0
  let _ ← r_assert (decide (t2.measurementRange = RtdRange.PT200))
  let t3 ← r_index module.chParams 1
  let _ ← r_assert (decide (t3.measurementRange = RtdRange.Disabled))
  pure ()

example : rs_create_module_from_modbus_parameter_data true = .ok () ∧ rs_create_module_from_modbus_parameter_data false = .ok () := by
  decide +kernel

end Ur20.Src.ur20_4ai_rtd_diag
