import Verif.Source.Ur20_8ai_i_16_diag_hd
import Verif.SourceTests.Prelude

/-!
# The unit tests of `src/ur20_8ai_i_16_diag_hd.rs`, translated

Generated by `tools/tests2lean.py` from the source. Do not edit.
-/

set_option linter.unusedVariables false

namespace Ur20.Src.ur20_8ai_i_16_diag_hd

deriving instance DecidableEq for ModuleParameters

deriving instance DecidableEq for ChannelParameters

/-- `test_process_input_data_with_empty_buffer`, `src/ur20_8ai_i_16_diag_hd.rs:171-174`. -/
def rs_test_process_input_data_with_empty_buffer (oc : Bool) : Res Unit := do
  let t1 ← Mod.default oc
  let m := t1
  let t2 ← r_is_err ((ToDyn.toDyn oc m).process_input_data [])
  let _ ← r_assert t2
  pure ()

example : rs_test_process_input_data_with_empty_buffer true = .ok () ∧ rs_test_process_input_data_with_empty_buffer false = .ok () := by
  decide +kernel

/-- `test_process_input_data_with_missing_channel_parameters`, `src/ur20_8ai_i_16_diag_hd.rs:177-183`. -/
def rs_test_process_input_data_with_missing_channel_parameters (oc : Bool) : Res Unit := do
  let t1 ← Mod.default oc
  let m := ({ t1 with chParams := [] } : Mod)
  let t2 ← r_is_err ((ToDyn.toDyn oc m).process_input_data (List.replicate 8 0))
  let _ ← r_assert t2
  pure ()

example : rs_test_process_input_data_with_missing_channel_parameters true = .ok () ∧ rs_test_process_input_data_with_missing_channel_parameters false = .ok () := by
  decide +kernel

/-- `test_process_input_data`, `src/ur20_8ai_i_16_diag_hd.rs:186-217`. -/
def rs_test_process_input_data (oc : Bool) : Res Unit := do
  let t1 ← Mod.default oc
  let m := t1
  let t2 ← r_unwrap ((ToDyn.toDyn oc m).process_input_data [5, 0, 7, 8, 0, 0, 0, 0])
  let _ ← r_assert (decide (t2 = (List.replicate 8 ChannelValue.disabled)))
  let t3 ← r_index m.chParams 0
  let t4 ← r_set m.chParams 0 { t3 with measurementRange := AnalogIRange.mA0To20 }
  let m := { m with chParams := t4 }
  let t5 ← r_index m.chParams 1
  let t6 ← r_set m.chParams 1 { t5 with measurementRange := AnalogIRange.mA0To20 }
  let m := { m with chParams := t6 }
  let t7 ← r_index m.chParams 2
  let t8 ← r_set m.chParams 2 { t7 with measurementRange := AnalogIRange.mA0To20 }
  let m := { m with chParams := t8 }
  let t9 ← r_index m.chParams 2
  let t10 ← r_set m.chParams 2 { t9 with dataFormat := DataFormat.S5 }
  let m := { m with chParams := t10 }
  let t11 ← r_index m.chParams 3
  let t12 ← r_set m.chParams 3 { t11 with measurementRange := AnalogIRange.mA4To20 }
  let m := { m with chParams := t12 }
  let t13 ← r_index m.chParams 4
  let t14 ← r_set m.chParams 4 { t13 with measurementRange := AnalogIRange.mA4To20 }
  let m := { m with chParams := t14 }
  let t15 ← r_index m.chParams 5
  let t16 ← r_set m.chParams 5 { t15 with measurementRange := AnalogIRange.mA4To20 }
  let m := { m with chParams := t16 }
  let t17 ← r_index m.chParams 5
  let t18 ← r_set m.chParams 5 { t17 with dataFormat := DataFormat.S5 }
  let m := { m with chParams := t18 }
  let t19 ← r_unwrap ((ToDyn.toDyn oc m).process_input_data [27648, 13824, 16384, 27648, 13824, 16384, 0, 0])
  let _ ← r_assert (decide (t19 = [ChannelValue.decimal32 (F32.lit 20), ChannelValue.decimal32 (F32.lit 10), ChannelValue.decimal32 (F32.lit 20), ChannelValue.decimal32 (F32.lit 20), ChannelValue.decimal32 (F32.lit 12), ChannelValue.decimal32 (F32.lit 20), ChannelValue.disabled, ChannelValue.disabled]))
  pure ()

example : rs_test_process_input_data true = .ok () ∧ rs_test_process_input_data false = .ok () := by
  decide +kernel

/-- `test_process_input_data_with_underloading`, `src/ur20_8ai_i_16_diag_hd.rs:220-243`. -/
def rs_test_process_input_data_with_underloading (oc : Bool) : Res Unit := do
  let t1 ← Mod.default oc
  let m := t1
  let t2 ← r_index m.chParams 0
  let t3 ← r_set m.chParams 0 { t2 with measurementRange := AnalogIRange.mA4To20 }
  let m := { m with chParams := t3 }
  let t4 ← r_index m.chParams 0
  let t5 ← r_set m.chParams 0 { t4 with dataFormat := DataFormat.S7 }
  let m := { m with chParams := t5 }
  let t6 ← r_index m.chParams 1
  let t7 ← r_set m.chParams 1 { t6 with measurementRange := AnalogIRange.mA4To20 }
  let m := { m with chParams := t7 }
  let t8 ← r_index m.chParams 1
  let t9 ← r_set m.chParams 1 { t8 with dataFormat := DataFormat.S5 }
  let m := { m with chParams := t9 }
  let t10 ← r_unwrap ((ToDyn.toDyn oc m).process_input_data [60672, 62259, 0, 0, 0, 0, 0, 0])
  let input := t10
  let t11 ← r_index input 0
  let _ ← (match t11 with
      | ChannelValue.decimal32 v =>
        (do
          let t12 ← r_sub oc v (F32.lit (119 / 100))
          let _ ← r_assert (decide ((r_abs t12) < (F32.lit (1 / 100))))
          pure ())
      | _ =>
        (Res.panic))
  let t13 ← r_index input 1
  let _ ← (match t13 with
      | ChannelValue.decimal32 v =>
        (do
          let t14 ← r_sub oc v (F32.lit (8 / 10))
          let _ ← r_assert (decide ((r_abs t14) < (F32.lit (1 / 100))))
          pure ())
      | _ =>
        (Res.panic))
  pure ()

example : rs_test_process_input_data_with_underloading true = .ok () ∧ rs_test_process_input_data_with_underloading false = .ok () := by
  decide +kernel

/-- `test_process_output_data`, `src/ur20_8ai_i_16_diag_hd.rs:246-253`. -/
def rs_test_process_output_data (oc : Bool) : Res Unit := do
  let t1 ← Mod.default oc
  let m := t1
  let t2 ← r_is_err ((ToDyn.toDyn oc m).process_output_data (List.replicate 8 0))
  let _ ← r_assert t2
  let t3 ← r_unwrap ((ToDyn.toDyn oc m).process_output_data [])
  let _ ← r_assert (decide (t3 = (List.replicate 8 ChannelValue.none)))
  pure ()

example : rs_test_process_output_data true = .ok () ∧ rs_test_process_output_data false = .ok () := by
  decide +kernel

/-- `test_process_output_values`, `src/ur20_8ai_i_16_diag_hd.rs:256-268`. -/
def rs_test_process_output_values (oc : Bool) : Res Unit := do
  let t1 ← Mod.default oc
  let m := t1
  let t2 ← r_is_err ((ToDyn.toDyn oc m).process_output_values [ChannelValue.decimal32 (F32.lit 0)])
  let _ ← r_assert t2
  let t3 ← r_unwrap ((ToDyn.toDyn oc m).process_output_values [])
  let _ ← r_assert (decide (t3 = []))
  let t4 ← r_unwrap ((ToDyn.toDyn oc m).process_output_values (List.replicate 8 ChannelValue.none))
  let _ ← r_assert (decide (t4 = []))
  pure ()

example : rs_test_process_output_values true = .ok () ∧ rs_test_process_output_values false = .ok () := by
  decide +kernel

/-- `test_module_parameters_from_raw_data`, `src/ur20_8ai_i_16_diag_hd.rs:271-316`. -/
def rs_test_module_parameters_from_raw_data (oc : Bool) : Res Unit := do
  let data : List Word := [0, 0, 0, 0, 0, 0, 0, 0, 0, 0, 0, 0, 0, 0, 0, 0, 0, 0, 0, 0, 0, 0, 0, 0, 0, 0, 0, 0, 0, 0, 0, 0, 0]
  let t1 ← r_unwrap (parameters_from_raw_data oc data)
  let _ ← r_assert (decide (t1.1.frequencySuppression = FrequencySuppression.Disabled))
  let t2 ← r_set data 0 1
  let data := t2
  let t3 ← r_unwrap (parameters_from_raw_data oc data)
  let _ ← r_assert (decide (t3.1.frequencySuppression = FrequencySuppression.Hz50))
  let t4 ← r_set data 0 2
  let data := t4
  let t5 ← r_unwrap (parameters_from_raw_data oc data)
  let _ ← r_assert (decide (t5.1.frequencySuppression = FrequencySuppression.Hz60))
  let t6 ← r_set data 0 3
  let data := t6
  let t7 ← r_unwrap (parameters_from_raw_data oc data)
  let _ ← r_assert (decide (t7.1.frequencySuppression = FrequencySuppression.Average16))
  pure ()

example : rs_test_module_parameters_from_raw_data true = .ok () ∧ rs_test_module_parameters_from_raw_data false = .ok () := by
  decide +kernel

/-- `test_channel_parameters_from_raw_data`, `src/ur20_8ai_i_16_diag_hd.rs:319-359`. -/
def rs_test_channel_parameters_from_raw_data (oc : Bool) : Res Unit := do
  let data : List Word := [0, 0, 0, 1, 2, 1, 0, 0, 2, 0, 1, 0, 2, 0, 0, 1, 2, 0, 0, 0, 1, 1, 1, 1, 0, 0, 0, 0, 0, 0, 0, 0, 0]
  let t1 ← r_unwrap (parameters_from_raw_data oc data)
  let _ ← r_assert (decide (t1.2.length = 8))
  let t2 ← r_unwrap (parameters_from_raw_data oc data)
  let t3 ← r_index t2.2 0
  let t4 ← ChannelParameters.default oc
  let _ ← r_assert (decide (t3 = t4))
  let t5 ← r_unwrap (parameters_from_raw_data oc data)
  let t6 ← r_index t5.2 1
  let _ ← r_assert t6.channelDiagnostics
  let t7 ← r_unwrap (parameters_from_raw_data oc data)
  let t8 ← r_index t7.2 1
  let _ ← r_assert (!t8.diagShortCircuit)
  let t9 ← r_unwrap (parameters_from_raw_data oc data)
  let t10 ← r_index t9.2 1
  let _ ← r_assert (decide (t10.dataFormat = DataFormat.S5))
  let t11 ← r_unwrap (parameters_from_raw_data oc data)
  let t12 ← r_index t11.2 1
  let _ ← r_assert (decide (t12.measurementRange = AnalogIRange.Disabled))
  let t13 ← r_unwrap (parameters_from_raw_data oc data)
  let t14 ← r_index t13.2 2
  let _ ← r_assert t14.diagShortCircuit
  let t15 ← r_unwrap (parameters_from_raw_data oc data)
  let t16 ← r_index t15.2 3
  let _ ← r_assert (decide (t16.dataFormat = DataFormat.S7))
  let t17 ← r_unwrap (parameters_from_raw_data oc data)
  let t18 ← r_index t17.2 4
  let _ ← r_assert (decide (t18.measurementRange = AnalogIRange.mA4To20))
  pure ()

example : rs_test_channel_parameters_from_raw_data true = .ok () ∧ rs_test_channel_parameters_from_raw_data false = .ok () := by
  decide +kernel

/-- `test_parameters_from_invalid_raw_data`, `src/ur20_8ai_i_16_diag_hd.rs:362-389`. -/
def rs_test_parameters_from_invalid_raw_data (oc : Bool) : Res Unit := do
  let data : List Word := [0, 0, 0, 0, 0, 0, 0, 0, 0, 0, 0, 0, 0, 0, 0, 0, 0, 0, 0, 0, 0, 0, 0, 0, 0, 0, 0, 0, 0, 0, 0, 0, 0]
  let t1 ← r_set data 1 2
  let data := t1
  let t2 ← r_is_err (parameters_from_raw_data oc data)
  let _ ← r_assert t2
  let t3 ← r_set data 1 0
  let data := t3
  let t4 ← r_set data 2 2
  let data := t4
  let t5 ← r_is_err (parameters_from_raw_data oc data)
  let _ ← r_assert t5
  let t6 ← r_set data 2 0
  let data := t6
  let t7 ← r_set data 3 2
  let data := t7
  let t8 ← r_is_err (parameters_from_raw_data oc data)
  let _ ← r_assert t8
  let t9 ← r_set data 3 0
  let data := t9
  let t10 ← r_set data 4 3
  let data := t10
  let t11 ← r_is_err (parameters_from_raw_data oc data)
  let _ ← r_assert t11
  pure ()

example : rs_test_parameters_from_invalid_raw_data true = .ok () ∧ rs_test_parameters_from_invalid_raw_data false = .ok () := by
  decide +kernel

/-- `test_parameters_from_invalid_data_buffer_size`, `src/ur20_8ai_i_16_diag_hd.rs:392-399`. -/
def rs_test_parameters_from_invalid_data_buffer_size (oc : Bool) : Res Unit := do
  let data : List Word := List.replicate 0 0
  let t1 ← r_is_err (parameters_from_raw_data oc data)
  let _ ← r_assert t1
  let data : List Word := List.replicate 32 0
  let t2 ← r_is_err (parameters_from_raw_data oc data)
  let _ ← r_assert t2
  let data : List Word := List.replicate 33 0
  let t3 ← r_is_ok (parameters_from_raw_data oc data)
  let _ ← r_assert t3
  pure ()

example : rs_test_parameters_from_invalid_data_buffer_size true = .ok () ∧ rs_test_parameters_from_invalid_data_buffer_size false = .ok () := by
  decide +kernel

/-- `create_module_from_modbus_parameter_data`, `src/ur20_8ai_i_16_diag_hd.rs:402-422`. -/
def rs_create_module_from_modbus_parameter_data (oc : Bool) : Res Unit := do
  let data : List Word := [0, 0, 0, 0, 0, 0, 0, 0, 2, 1, 0, 0, 0, 0, 0, 0, 0, 0, 0, 0, 0, 0, 0, 0, 0, 0, 0, 0, 0, 0, 0, 0, 0]
  let t1 ← r_unwrap (Mod.from_modbus_parameter_data oc data)
  let module := t1
  let t2 ← r_index module.chParams 0
  let _ ← r_assert (decide (t2.measurementRange = AnalogIRange.mA0To20))
  let t3 ← r_index module.chParams 1
  let _ ← r_assert (decide (t3.measurementRange = AnalogIRange.Disabled))
  let t4 ← r_index module.chParams 2
  let _ ← r_assert t4.channelDiagnostics
  pure ()

example : rs_create_module_from_modbus_parameter_data true = .ok () ∧ rs_create_module_from_modbus_parameter_data false = .ok () := by
  decide +kernel

end Ur20.Src.ur20_8ai_i_16_diag_hd
