import Verif.Source.Ur20_4ao_ui_16_diag
import Verif.SourceTests.Prelude

/-!
# The unit tests of `src/ur20_4ao_ui_16_diag.rs`, translated

Generated by `tools/tests2lean.py` from the source. Do not edit.
-/

set_option linter.unusedVariables false

namespace Ur20.Src.ur20_4ao_ui_16_diag

deriving instance DecidableEq for ChannelParameters

/-- `test_process_input_data`, `src/ur20_4ao_ui_16_diag.rs:150-162`. -/
def rs_test_process_input_data (oc : Bool) : Res Unit := do
  let t1 ← Mod.default oc
  let m := t1
  let t2 ← r_is_err ((ToDyn.toDyn oc m).process_input_data [0, 0, 0, 0])
  let _ ← r_assert t2
  let t3 ← r_unwrap ((ToDyn.toDyn oc m).process_input_data [])
  let _ ← r_assert (decide (t3 = [ChannelValue.none, ChannelValue.none, ChannelValue.none, ChannelValue.none]))
  pure ()

example : rs_test_process_input_data true = .ok () ∧ rs_test_process_input_data false = .ok () := by
  decide +kernel

/-- `test_process_output_data`, `src/ur20_4ao_ui_16_diag.rs:165-189`. -/
def rs_test_process_output_data (oc : Bool) : Res Unit := do
  let t1 ← Mod.default oc
  let m := t1
  let t2 ← r_unwrap ((ToDyn.toDyn oc m).process_output_data [123, 456, 789, 0])
  let _ ← r_assert (decide (t2 = [ChannelValue.disabled, ChannelValue.disabled, ChannelValue.disabled, ChannelValue.disabled]))
  let t3 ← r_index m.chParams 0
  let t4 ← r_set m.chParams 0 { t3 with outputRange := AnalogUIRange.mA0To20 }
  let m := { m with chParams := t4 }
  let t5 ← r_index m.chParams 1
  let t6 ← r_set m.chParams 1 { t5 with outputRange := AnalogUIRange.mA0To20 }
  let m := { m with chParams := t6 }
  let t7 ← r_index m.chParams 2
  let t8 ← r_set m.chParams 2 { t7 with outputRange := AnalogUIRange.mA0To20 }
  let m := { m with chParams := t8 }
  let t9 ← r_index m.chParams 3
  let t10 ← r_set m.chParams 3 { t9 with outputRange := AnalogUIRange.mA0To20 }
  let m := { m with chParams := t10 }
  let t11 ← r_unwrap ((ToDyn.toDyn oc m).process_output_data [0, 27648, 13824, 0])
  let _ ← r_assert (decide (t11 = [ChannelValue.decimal32 (F32.lit 0), ChannelValue.decimal32 (F32.lit 20), ChannelValue.decimal32 (F32.lit 10), ChannelValue.decimal32 (F32.lit 0)]))
  pure ()

example : rs_test_process_output_data true = .ok () ∧ rs_test_process_output_data false = .ok () := by
  decide +kernel

/-- `test_process_output_data_with_invalid_buffer_size`, `src/ur20_4ao_ui_16_diag.rs:192-198`. -/
def rs_test_process_output_data_with_invalid_buffer_size (oc : Bool) : Res Unit := do
  let t1 ← Mod.default oc
  let m := t1
  let t2 ← r_is_err ((ToDyn.toDyn oc m).process_output_data [])
  let _ ← r_assert t2
  let t3 ← r_is_err ((ToDyn.toDyn oc m).process_output_data (List.replicate 3 0))
  let _ ← r_assert t3
  let t4 ← r_is_err ((ToDyn.toDyn oc m).process_output_data (List.replicate 5 0))
  let _ ← r_assert t4
  let t5 ← r_is_ok ((ToDyn.toDyn oc m).process_output_data (List.replicate 4 0))
  let _ ← r_assert t5
  pure ()

example : rs_test_process_output_data_with_invalid_buffer_size true = .ok () ∧ rs_test_process_output_data_with_invalid_buffer_size false = .ok () := by
  decide +kernel

/-- `test_process_output_values_with_invalid_channel_len`, `src/ur20_4ao_ui_16_diag.rs:201-212`. -/
def rs_test_process_output_values_with_invalid_channel_len (oc : Bool) : Res Unit := do
  let t1 ← Mod.default oc
  let m := t1
  let t2 ← r_is_err ((ToDyn.toDyn oc m).process_output_values [])
  let _ ← r_assert t2
  let t3 ← r_is_err ((ToDyn.toDyn oc m).process_output_values [ChannelValue.decimal32 (F32.lit 0), ChannelValue.decimal32 (F32.lit 0), ChannelValue.decimal32 (F32.lit 0)])
  let _ ← r_assert t3
  let t4 ← r_is_ok ((ToDyn.toDyn oc m).process_output_values [ChannelValue.decimal32 (F32.lit 0), ChannelValue.decimal32 (F32.lit 0), ChannelValue.disabled, ChannelValue.decimal32 (F32.lit 0)])
  let _ ← r_assert t4
  pure ()

example : rs_test_process_output_values_with_invalid_channel_len true = .ok () ∧ rs_test_process_output_values_with_invalid_channel_len false = .ok () := by
  decide +kernel

/-- `test_process_output_values_with_invalid_channel_values`, `src/ur20_4ao_ui_16_diag.rs:215-221`. -/
def rs_test_process_output_values_with_invalid_channel_values (oc : Bool) : Res Unit := do
  let t1 ← Mod.default oc
  let m := t1
  let t2 ← r_is_err ((ToDyn.toDyn oc m).process_output_values [ChannelValue.bit false, ChannelValue.decimal32 (F32.lit 0), ChannelValue.decimal32 (F32.lit 0), ChannelValue.decimal32 (F32.lit 0)])
  let _ ← r_assert t2
  pure ()

example : rs_test_process_output_values_with_invalid_channel_values true = .ok () ∧ rs_test_process_output_values_with_invalid_channel_values false = .ok () := by
  decide +kernel

/-- `test_process_output_values_with_missing_channel_parameters`, `src/ur20_4ao_ui_16_diag.rs:224-235`. -/
def rs_test_process_output_values_with_missing_channel_parameters (oc : Bool) : Res Unit := do
  let m := ({ chParams := [] } : Mod)
  let t1 ← r_is_err ((ToDyn.toDyn oc m).process_output_values [ChannelValue.decimal32 (F32.lit 0), ChannelValue.decimal32 (F32.lit 0), ChannelValue.decimal32 (F32.lit 0), ChannelValue.decimal32 (F32.lit 0)])
  let _ ← r_assert t1
  pure ()

example : rs_test_process_output_values_with_missing_channel_parameters true = .ok () ∧ rs_test_process_output_values_with_missing_channel_parameters false = .ok () := by
  decide +kernel

/-- `test_process_output_values`, `src/ur20_4ao_ui_16_diag.rs:238-289`. -/
def rs_test_process_output_values (oc : Bool) : Res Unit := do
  let t1 ← Mod.default oc
  let m := t1
  let t2 ← r_unwrap ((ToDyn.toDyn oc m).process_output_values [ChannelValue.decimal32 (F32.lit 0), ChannelValue.decimal32 (F32.lit (999 / 10)), ChannelValue.disabled, ChannelValue.decimal32 (F32.lit (33 / 10))])
  let _ ← r_assert (decide (t2 = [0, 0, 0, 0]))
  let t3 ← r_index m.chParams 0
  let t4 ← r_set m.chParams 0 { t3 with outputRange := AnalogUIRange.mA0To20 }
  let m := { m with chParams := t4 }
  let t5 ← r_index m.chParams 1
  let t6 ← r_set m.chParams 1 { t5 with outputRange := AnalogUIRange.mA0To20 }
  let m := { m with chParams := t6 }
  let t7 ← r_index m.chParams 2
  let t8 ← r_set m.chParams 2 { t7 with outputRange := AnalogUIRange.mA0To20 }
  let m := { m with chParams := t8 }
  let t9 ← r_index m.chParams 3
  let t10 ← r_set m.chParams 3 { t9 with outputRange := AnalogUIRange.mA0To20 }
  let m := { m with chParams := t10 }
  let t11 ← r_unwrap ((ToDyn.toDyn oc m).process_output_values [ChannelValue.decimal32 (F32.lit (23518 / 1000)), ChannelValue.decimal32 (F32.lit 20), ChannelValue.decimal32 (F32.lit 10), ChannelValue.decimal32 (F32.lit 0)])
  let _ ← r_assert (decide (t11 = [32511, 27648, 13824, 0]))
  let t12 ← r_index m.chParams 0
  let t13 ← r_set m.chParams 0 { t12 with outputRange := AnalogUIRange.mA0To20 }
  let m := { m with chParams := t13 }
  let t14 ← r_index m.chParams 1
  let t15 ← r_set m.chParams 1 { t14 with outputRange := AnalogUIRange.mA4To20 }
  let m := { m with chParams := t15 }
  let t16 ← r_index m.chParams 2
  let t17 ← r_set m.chParams 2 { t16 with outputRange := AnalogUIRange.V0To10 }
  let m := { m with chParams := t17 }
  let t18 ← r_index m.chParams 3
  let t19 ← r_set m.chParams 3 { t18 with outputRange := AnalogUIRange.VMinus10To10 }
  let m := { m with chParams := t19 }
  let t20 ← r_unwrap ((ToDyn.toDyn oc m).process_output_values [ChannelValue.decimal32 (F32.lit 10), ChannelValue.decimal32 (F32.lit 12), ChannelValue.decimal32 (F32.lit 10), ChannelValue.decimal32 (F32.lit (-10))])
  let _ ← r_assert (decide (t20 = [13824, 13824, 27648, 37888]))
  let t21 ← r_index m.chParams 0
  let t22 ← r_set m.chParams 0 { t21 with outputRange := AnalogUIRange.V0To5 }
  let m := { m with chParams := t22 }
  let t23 ← r_index m.chParams 1
  let t24 ← r_set m.chParams 1 { t23 with outputRange := AnalogUIRange.VMinus5To5 }
  let m := { m with chParams := t24 }
  let t25 ← r_index m.chParams 2
  let t26 ← r_set m.chParams 2 { t25 with outputRange := AnalogUIRange.V1To5 }
  let m := { m with chParams := t26 }
  let t27 ← r_index m.chParams 3
  let t28 ← r_set m.chParams 3 { t27 with outputRange := AnalogUIRange.V2To10 }
  let m := { m with chParams := t28 }
  let t29 ← r_unwrap ((ToDyn.toDyn oc m).process_output_values [ChannelValue.decimal32 (F32.lit 5), ChannelValue.decimal32 (F32.lit (-5)), ChannelValue.decimal32 (F32.lit 1), ChannelValue.decimal32 (F32.lit 2)])
  let _ ← r_assert (decide (t29 = [27648, 37888, 0, 0]))
  pure ()

example : rs_test_process_output_values true = .ok () ∧ rs_test_process_output_values false = .ok () := by
  decide +kernel

/-- `test_channel_parameters_from_raw_data`, `src/ur20_4ao_ui_16_diag.rs:292-329`. -/
def rs_test_channel_parameters_from_raw_data (oc : Bool) : Res Unit := do
  let data : List Word := [1, 8, 0, 0, 1, 0, 0, 1, 0, 2, 0, 0, 1, 5, 51712, 0]
  let t1 ← r_unwrap (parameters_from_raw_data oc data)
  let _ ← r_assert (decide (t1.length = 4))
  let t2 ← r_unwrap (parameters_from_raw_data oc data)
  let t3 ← r_index t2 0
  let t4 ← ChannelParameters.default oc
  let _ ← r_assert (decide (t3 = t4))
  let t5 ← r_unwrap (parameters_from_raw_data oc data)
  let t6 ← r_index t5 1
  let _ ← r_assert (decide (t6.dataFormat = DataFormat.S7))
  let t7 ← r_unwrap (parameters_from_raw_data oc data)
  let t8 ← r_index t7 1
  let _ ← r_assert t8.channelDiagnostics
  let t9 ← r_unwrap (parameters_from_raw_data oc data)
  let t10 ← r_index t9 2
  let _ ← r_assert (decide (t10.outputRange = AnalogUIRange.V0To10))
  let t11 ← r_unwrap (parameters_from_raw_data oc data)
  let t12 ← r_index t11 2
  let _ ← r_assert (decide (t12.dataFormat = DataFormat.S5))
  let t13 ← r_unwrap (parameters_from_raw_data oc data)
  let t14 ← r_index t13 3
  let _ ← r_assert (decide (t14.substituteValue = (F32.lit (-25 / 10))))
  pure ()

example : rs_test_channel_parameters_from_raw_data true = .ok () ∧ rs_test_channel_parameters_from_raw_data false = .ok () := by
  decide +kernel

/-- `test_parameters_from_invalid_raw_data`, `src/ur20_4ao_ui_16_diag.rs:332-345`. -/
def rs_test_parameters_from_invalid_raw_data (oc : Bool) : Res Unit := do
  let data : List Word := List.replicate 16 0
  let t1 ← r_set data 0 2
  let data := t1
  let t2 ← r_is_err (parameters_from_raw_data oc data)
  let _ ← r_assert t2
  let t3 ← r_set data 0 0
  let data := t3
  let t4 ← r_set data 1 9
  let data := t4
  let t5 ← r_is_err (parameters_from_raw_data oc data)
  let _ ← r_assert t5
  let t6 ← r_set data 1 0
  let data := t6
  let t7 ← r_set data 3 2
  let data := t7
  let t8 ← r_is_err (parameters_from_raw_data oc data)
  let _ ← r_assert t8
  pure ()

example : rs_test_parameters_from_invalid_raw_data true = .ok () ∧ rs_test_parameters_from_invalid_raw_data false = .ok () := by
  decide +kernel

/-- `test_parameters_from_invalid_data_buffer_size`, `src/ur20_4ao_ui_16_diag.rs:348-355`. -/
def rs_test_parameters_from_invalid_data_buffer_size (oc : Bool) : Res Unit := do
  let data : List Word := List.replicate 0 0
  let t1 ← r_is_err (parameters_from_raw_data oc data)
  let _ ← r_assert t1
  let data : List Word := List.replicate 15 0
  let t2 ← r_is_err (parameters_from_raw_data oc data)
  let _ ← r_assert t2
  let data : List Word := List.replicate 16 0
  let t3 ← r_is_ok (parameters_from_raw_data oc data)
  let _ ← r_assert t3
  pure ()

example : rs_test_parameters_from_invalid_data_buffer_size true = .ok () ∧ rs_test_parameters_from_invalid_data_buffer_size false = .ok () := by
  decide +kernel

/-- `create_module_from_modbus_parameter_data`, `src/ur20_4ao_ui_16_diag.rs:358-369`. -/
def rs_create_module_from_modbus_parameter_data (oc : Bool) : Res Unit := do
  let data : List Word := [1, 0, 0, 0, 0, 8, 0, 0, 0, 0, 0, 0, 0, 0, 0, 0]
  let t1 ← r_unwrap (Mod.from_modbus_parameter_data oc data)
  let module := t1
  let t2 ← r_index module.chParams 0
  let _ ← r_assert (decide (t2.dataFormat = DataFormat.S7))
  let t3 ← r_index module.chParams 1
  let _ ← r_assert (decide (t3.outputRange = AnalogUIRange.Disabled))
  pure ()

example : rs_create_module_from_modbus_parameter_data true = .ok () ∧ rs_create_module_from_modbus_parameter_data false = .ok () := by
  decide +kernel

end Ur20.Src.ur20_4ao_ui_16_diag
