import Verif.Source.Ur20_4ai_tc_diag
import Verif.SourceTests.Prelude

/-!
# The unit tests of `src/ur20_4ai_tc_diag.rs`, translated

Generated by `tools/tests2lean.py` from the source. Do not edit.
-/

set_option linter.unusedVariables false

namespace Ur20.Src.ur20_4ai_tc_diag

deriving instance DecidableEq for ModuleParameters

deriving instance DecidableEq for ChannelParameters

/-- `assert_approx_equal`, `src/ur20_4ai_tc_diag.rs:245-256`. -/
def rs_assert_approx_equal (oc : Bool) (a : ChannelValue) (b : ChannelValue) : Res Unit := do
  let _ ← (match (a, b) with
      | ((ChannelValue.decimal32 x), (ChannelValue.decimal32 y)) =>
        (do
          let epsilon : F32 := F32.lit (1 / 10000)
          let t1 ← r_sub oc x y
          let _ ← r_assert (decide ((r_abs t1) ≤ epsilon))
          pure ())
      | _ =>
        (do
          let _ ← r_assert (decide (a = b))
          pure ()))
  pure ()

/-- `test_process_input_data_wrong_size`, `src/ur20_4ai_tc_diag.rs:234-242`. -/
def rs_test_process_input_data_wrong_size (oc : Bool) : Res Unit := do
  let t1 ← Mod.default oc
  let m := t1
  let t2 ← r_is_err ((ToDyn.toDyn oc m).process_input_data (List.replicate 0 0))
  let _ ← r_assert t2
  let t3 ← r_is_err ((ToDyn.toDyn oc m).process_input_data (List.replicate 1 0))
  let _ ← r_assert t3
  let t4 ← r_is_err ((ToDyn.toDyn oc m).process_input_data (List.replicate 2 0))
  let _ ← r_assert t4
  let t5 ← r_is_err ((ToDyn.toDyn oc m).process_input_data (List.replicate 3 0))
  let _ ← r_assert t5
  let t6 ← r_is_ok ((ToDyn.toDyn oc m).process_input_data (List.replicate 4 0))
  let _ ← r_assert t6
  let t7 ← r_is_err ((ToDyn.toDyn oc m).process_input_data (List.replicate 5 0))
  let _ ← r_assert t7
  pure ()

example : rs_test_process_input_data_wrong_size true = .ok () ∧ rs_test_process_input_data_wrong_size false = .ok () := by
  decide +kernel

/-- `test_process_input_data`, `src/ur20_4ai_tc_diag.rs:259-304`. -/
def rs_test_process_input_data (oc : Bool) : Res Unit := do
  let t1 ← Mod.default oc
  let m := t1
  let t2 ← r_index m.chParams 0
  let _ ← r_assert (decide (t2.measurementRange = TcRange.Disabled))
  let t3 ← r_index m.chParams 1
  let _ ← r_assert (decide (t3.measurementRange = TcRange.Disabled))
  let t4 ← r_index m.chParams 2
  let _ ← r_assert (decide (t4.measurementRange = TcRange.Disabled))
  let t5 ← r_index m.chParams 3
  let _ ← r_assert (decide (t5.measurementRange = TcRange.Disabled))
  let t6 ← r_unwrap ((ToDyn.toDyn oc m).process_input_data [0, 0, 0, 0])
  let _ ← r_assert (decide (t6 = (List.replicate 4 ChannelValue.disabled)))
  let t7 ← r_index m.chParams 0
  let t8 ← r_set m.chParams 0 { t7 with measurementRange := TcRange.TC_Type_K }
  let m := { m with chParams := t8 }
  let t9 ← r_index m.chParams 1
  let t10 ← r_set m.chParams 1 { t9 with measurementRange := TcRange.VPlusMinus2 }
  let m := { m with chParams := t10 }
  let t11 ← r_index m.chParams 2
  let t12 ← r_set m.chParams 2 { t11 with measurementRange := TcRange.mVPlusMinus500 }
  let m := { m with chParams := t12 }
  let t13 ← r_index m.chParams 3
  let t14 ← r_set m.chParams 3 { t13 with measurementRange := TcRange.uVPlusMinus15625 }
  let m := { m with chParams := t14 }
  let t15 ← r_unwrap ((ToDyn.toDyn oc m).process_input_data [(r_as (-2000 : I16) : Word), 0, 0, 0])
  let results := t15
  let t16 ← r_index results 0
  let t17 ← rs_assert_approx_equal oc t16 (ChannelValue.decimal32 (F32.lit (-200)))
  let t18 ← r_index results 1
  let t19 ← rs_assert_approx_equal oc t18 (ChannelValue.decimal32 (F32.lit 0))
  let t20 ← r_index results 2
  let t21 ← rs_assert_approx_equal oc t20 (ChannelValue.decimal32 (F32.lit 0))
  let t22 ← r_index results 3
  let t23 ← rs_assert_approx_equal oc t22 (ChannelValue.decimal32 (F32.lit 0))
  let t24 ← r_unwrap ((ToDyn.toDyn oc m).process_input_data [0, 16384, 16384, 16384])
  let results := t24
  let t25 ← r_index results 0
  let t26 ← rs_assert_approx_equal oc t25 (ChannelValue.decimal32 (F32.lit 0))
  let t27 ← r_index results 1
  let t28 ← rs_assert_approx_equal oc t27 (ChannelValue.decimal32 (F32.lit 1))
  let t29 ← r_index results 2
  let t30 ← rs_assert_approx_equal oc t29 (ChannelValue.decimal32 (F32.lit (25 / 100)))
  let t31 ← r_index results 3
  let t32 ← rs_assert_approx_equal oc t31 (ChannelValue.decimal32 (F32.lit (78125 / 10000000)))
  let t33 ← r_unwrap ((ToDyn.toDyn oc m).process_input_data [32767, 32767, 32767, 32767])
  let results := t33
  let t34 ← r_index results 0
  let _ ← r_assert (decide (t34 = ChannelValue.none))
  let t35 ← r_index results 1
  let t36 ← rs_assert_approx_equal oc t35 (ChannelValue.decimal32 (F32.lit 2))
  let t37 ← r_index results 2
  let t38 ← rs_assert_approx_equal oc t37 (ChannelValue.decimal32 (F32.lit (5 / 10)))
  let t39 ← r_index results 3
  let t40 ← rs_assert_approx_equal oc t39 (ChannelValue.decimal32 (F32.lit (15625 / 1000000)))
  let t41 ← r_index m.chParams 0
  let t42 ← r_set m.chParams 0 { t41 with measurementRange := TcRange.Disabled }
  let m := { m with chParams := t42 }
  let t43 ← r_unwrap ((ToDyn.toDyn oc m).process_input_data [1000, 0, 0, 0])
  let results := t43
  let t44 ← r_index results 0
  let _ ← r_assert (decide (t44 = ChannelValue.disabled))
  let t45 ← r_index results 1
  let t46 ← rs_assert_approx_equal oc t45 (ChannelValue.decimal32 (F32.lit 0))
  let t47 ← r_index results 2
  let t48 ← rs_assert_approx_equal oc t47 (ChannelValue.decimal32 (F32.lit 0))
  let t49 ← r_index results 3
  let t50 ← rs_assert_approx_equal oc t49 (ChannelValue.decimal32 (F32.lit 0))
  pure ()

example : rs_test_process_input_data true = .ok () ∧ rs_test_process_input_data false = .ok () := by
  decide +kernel

/-- `test_process_input_data_with_underloading`, `src/ur20_4ai_tc_diag.rs:307-319`. -/
def rs_test_process_input_data_with_underloading (oc : Bool) : Res Unit := do
  let t1 ← Mod.default oc
  let m := t1
  let t2 ← r_index m.chParams 0
  let t3 ← r_set m.chParams 0 { t2 with measurementRange := TcRange.TC_Type_B }
  let m := { m with chParams := t3 }
  let t4 ← r_index m.chParams 1
  let t5 ← r_set m.chParams 1 { t4 with measurementRange := TcRange.TC_Type_J }
  let m := { m with chParams := t5 }
  let t6 ← r_unwrap ((ToDyn.toDyn oc m).process_input_data [460, (r_as (-2140 : I16) : Word), 0, 0])
  let inputs := t6
  let t7 ← r_index inputs 0
  let t8 ← rs_assert_approx_equal oc t7 (ChannelValue.decimal32 (F32.lit 46))
  let t9 ← r_index inputs 1
  let t10 ← rs_assert_approx_equal oc t9 (ChannelValue.decimal32 (F32.lit (-214)))
  pure ()

example : rs_test_process_input_data_with_underloading true = .ok () ∧ rs_test_process_input_data_with_underloading false = .ok () := by
  decide +kernel

/-- `test_process_output_data`, `src/ur20_4ai_tc_diag.rs:323-330`. -/
def rs_test_process_output_data (oc : Bool) : Res Unit := do
  let t1 ← Mod.default oc
  let m := t1
  let t2 ← r_is_err ((ToDyn.toDyn oc m).process_output_data (List.replicate 4 0))
  let _ ← r_assert t2
  let t3 ← r_unwrap ((ToDyn.toDyn oc m).process_output_data [])
  let _ ← r_assert (decide (t3 = (List.replicate 4 ChannelValue.none)))
  pure ()

example : rs_test_process_output_data true = .ok () ∧ rs_test_process_output_data false = .ok () := by
  decide +kernel

/-- `test_process_output_values`, `src/ur20_4ai_tc_diag.rs:334-346`. -/
def rs_test_process_output_values (oc : Bool) : Res Unit := do
  let t1 ← Mod.default oc
  let m := t1
  let t2 ← r_is_err ((ToDyn.toDyn oc m).process_output_values [ChannelValue.decimal32 (F32.lit 0)])
  let _ ← r_assert t2
  let t3 ← r_unwrap ((ToDyn.toDyn oc m).process_output_values [])
  let _ ← r_assert (decide (t3 = []))
  let t4 ← r_unwrap ((ToDyn.toDyn oc m).process_output_values (List.replicate 4 ChannelValue.none))
  let _ ← r_assert (decide (t4 = []))
  pure ()

example : rs_test_process_output_values true = .ok () ∧ rs_test_process_output_values false = .ok () := by
  decide +kernel

/-- `test_module_parameters_from_raw_data`, `src/ur20_4ai_tc_diag.rs:349-360`. -/
def rs_test_module_parameters_from_raw_data (oc : Bool) : Res Unit := do
  let data : List Word := List.replicate 29 0
  let t1 ← r_unwrap (parameters_from_raw_data oc data)
  let _ ← r_assert (decide (t1.1.temperatureUnit = TemperatureUnit.Celsius))
  let t2 ← r_set data 0 1
  let data := t2
  let t3 ← r_unwrap (parameters_from_raw_data oc data)
  let _ ← r_assert (decide (t3.1.temperatureUnit = TemperatureUnit.Fahrenheit))
  pure ()

example : rs_test_module_parameters_from_raw_data true = .ok () ∧ rs_test_module_parameters_from_raw_data false = .ok () := by
  decide +kernel

/-- `test_channel_parameters_from_raw_data`, `src/ur20_4ai_tc_diag.rs:363-404`. -/
def rs_test_channel_parameters_from_raw_data (oc : Bool) : Res Unit := do
  let data : List Word := [0, 19, 0, 2, 0, 0, 32767, (r_as (-32768 : I16) : Word), 1, 1, 1, 1, 1, 1000, (r_as (-1000 : I16) : Word), 19, 0, 0, 0, 0, 0, 0, 11, 4, 2, 0, 0, 0, 0]
  let t1 ← r_unwrap (parameters_from_raw_data oc data)
  let (_, ch_params) := t1
  let _ ← r_assert (decide (ch_params.length = 4))
  let t2 ← r_index ch_params 0
  let t3 ← ChannelParameters.default oc
  let _ ← r_assert (decide (t2 = t3))
  let t4 ← r_index ch_params 1
  let _ ← r_assert t4.channelDiagnostics
  let t5 ← r_index ch_params 1
  let _ ← r_assert t5.limitValueMonitoring
  let t6 ← r_index ch_params 1
  let _ ← r_assert (decide (t6.highLimitValue = 1000))
  let t7 ← r_index ch_params 1
  let _ ← r_assert (decide (t7.lowLimitValue = (-1000)))
  let t8 ← r_index ch_params 1
  let _ ← r_assert (decide (t8.measurementRange = TcRange.TC_Type_K))
  let t9 ← r_index ch_params 1
  let _ ← r_assert (decide (t9.coldJunctionCompensation = ColdJunctionCompensation.ExternalChannel0))
  let t10 ← r_index ch_params 1
  let _ ← r_assert (decide (t10.conversionTime = ConversionTime.ms130))
  let t11 ← r_index ch_params 2
  let _ ← r_assert (decide (t11.measurementRange = TcRange.Disabled))
  let t12 ← r_index ch_params 3
  let _ ← r_assert (decide (t12.measurementRange = TcRange.uVPlusMinus15625))
  let t13 ← r_index ch_params 3
  let _ ← r_assert (decide (t13.coldJunctionCompensation = ColdJunctionCompensation.ExternalChannel3))
  pure ()

example : rs_test_channel_parameters_from_raw_data true = .ok () ∧ rs_test_channel_parameters_from_raw_data false = .ok () := by
  decide +kernel

/-- `test_parameters_from_invalid_raw_data`, `src/ur20_4ai_tc_diag.rs:407-439`. -/
def rs_test_parameters_from_invalid_raw_data (oc : Bool) : Res Unit := do
  let data : List Word := List.replicate 29 0
  let t1 ← r_set data 0 3
  let data := t1
  let t2 ← r_is_err (parameters_from_raw_data oc data)
  let _ ← r_assert t2
  let t3 ← r_set data 0 0
  let data := t3
  let t4 ← r_set data 1 20
  let data := t4
  let t5 ← r_is_err (parameters_from_raw_data oc data)
  let _ ← r_assert t5
  let t6 ← r_set data 1 0
  let data := t6
  let t7 ← r_set data 2 5
  let data := t7
  let t8 ← r_is_err (parameters_from_raw_data oc data)
  let _ ← r_assert t8
  let t9 ← r_set data 2 0
  let data := t9
  let t10 ← r_set data 3 6
  let data := t10
  let t11 ← r_is_err (parameters_from_raw_data oc data)
  let _ ← r_assert t11
  let t12 ← r_set data 3 0
  let data := t12
  let t13 ← r_set data 4 2
  let data := t13
  let t14 ← r_is_err (parameters_from_raw_data oc data)
  let _ ← r_assert t14
  let t15 ← r_set data 4 0
  let data := t15
  let t16 ← r_set data 5 2
  let data := t16
  let t17 ← r_is_err (parameters_from_raw_data oc data)
  let _ ← r_assert t17
  pure ()

example : rs_test_parameters_from_invalid_raw_data true = .ok () ∧ rs_test_parameters_from_invalid_raw_data false = .ok () := by
  decide +kernel

/-- `test_parameters_from_invalid_data_buffer_size`, `src/ur20_4ai_tc_diag.rs:442-449`. -/
def rs_test_parameters_from_invalid_data_buffer_size (oc : Bool) : Res Unit := do
  let data : List Word := List.replicate 0 0
  let t1 ← r_is_err (parameters_from_raw_data oc data)
  let _ ← r_assert t1
  let data : List Word := List.replicate 28 0
  let t2 ← r_is_err (parameters_from_raw_data oc data)
  let _ ← r_assert t2
  let data : List Word := List.replicate 29 0
  let t3 ← r_is_ok (parameters_from_raw_data oc data)
  let _ ← r_assert t3
  pure ()

example : rs_test_parameters_from_invalid_data_buffer_size true = .ok () ∧ rs_test_parameters_from_invalid_data_buffer_size false = .ok () := by
  decide +kernel

/-- `create_module_from_modbus_parameter_data`, `src/ur20_4ai_tc_diag.rs:452-480`. -/
def rs_create_module_from_modbus_parameter_data (oc : Bool) : Res Unit := do
  let data : List Word := [1, 0, 0, 0, 0, 0, 32767, (r_as (-32768 : I16) : Word), 19, 0, 0, 0, 0, 0, 0, 1, 0, 0, 1, 0, 0, 0, 0, 0, 0, 0, 0, 0, 0]
  let t1 ← r_unwrap (Mod.from_modbus_parameter_data oc data)
  let module := t1
  let _ ← r_assert (decide (module.modParams.temperatureUnit = TemperatureUnit.Fahrenheit))
  let t2 ← r_index module.chParams 0
  let _ ← r_assert (decide (t2.measurementRange = TcRange.TC_Type_J))
  let t3 ← r_index module.chParams 1
  let _ ← r_assert (decide (t3.measurementRange = TcRange.Disabled))
  let t4 ← r_index module.chParams 2
  let _ ← r_assert t4.channelDiagnostics
  pure ()

example : rs_create_module_from_modbus_parameter_data true = .ok () ∧ rs_create_module_from_modbus_parameter_data false = .ok () := by
  decide +kernel

end Ur20.Src.ur20_4ai_tc_diag
