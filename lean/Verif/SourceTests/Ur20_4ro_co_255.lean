import Verif.Source.Ur20_4ro_co_255
import Verif.SourceTests.Prelude

/-!
# The unit tests of `src/ur20_4ro_co_255.rs`, translated

Generated by `tools/tests2lean.py` from the source. Do not edit.
-/

set_option linter.unusedVariables false

namespace Ur20.Src.ur20_4ro_co_255

deriving instance DecidableEq for ChannelParameters

/-- `test_process_output_values_with_invalid_channel_len`, `src/ur20_4ro_co_255.rs:106-117`. -/
def rs_test_process_output_values_with_invalid_channel_len (oc : Bool) : Res Unit := do
  let t1 ← Mod.default oc
  let m := t1
  let t2 ← r_is_err ((ToDyn.toDyn oc m).process_output_values [])
  let _ ← r_assert t2
  let t3 ← r_is_err ((ToDyn.toDyn oc m).process_output_values [ChannelValue.bit true, ChannelValue.bit false, ChannelValue.bit true])
  let _ ← r_assert t3
  let t4 ← r_is_ok ((ToDyn.toDyn oc m).process_output_values [ChannelValue.bit true, ChannelValue.bit false, ChannelValue.bit true, ChannelValue.bit true])
  let _ ← r_assert t4
  pure ()

example : rs_test_process_output_values_with_invalid_channel_len true = .ok () ∧ rs_test_process_output_values_with_invalid_channel_len false = .ok () := by
  decide +kernel

/-- `test_process_output_data`, `src/ur20_4ro_co_255.rs:120-140`. -/
def rs_test_process_output_data (oc : Bool) : Res Unit := do
  let t1 ← Mod.default oc
  let m := t1
  let t2 ← r_unwrap ((ToDyn.toDyn oc m).process_output_data [15])
  let _ ← r_assert (decide (t2 = [ChannelValue.bit true, ChannelValue.bit true, ChannelValue.bit true, ChannelValue.bit true]))
  let t3 ← r_unwrap ((ToDyn.toDyn oc m).process_output_data [5])
  let _ ← r_assert (decide (t3 = [ChannelValue.bit true, ChannelValue.bit false, ChannelValue.bit true, ChannelValue.bit false]))
  pure ()

example : rs_test_process_output_data true = .ok () ∧ rs_test_process_output_data false = .ok () := by
  decide +kernel

/-- `test_process_output_data_with_invalid_buffer_size`, `src/ur20_4ro_co_255.rs:143-146`. -/
def rs_test_process_output_data_with_invalid_buffer_size (oc : Bool) : Res Unit := do
  let t1 ← Mod.default oc
  let m := t1
  let t2 ← r_is_err ((ToDyn.toDyn oc m).process_output_data (List.replicate 2 0))
  let _ ← r_assert t2
  pure ()

example : rs_test_process_output_data_with_invalid_buffer_size true = .ok () ∧ rs_test_process_output_data_with_invalid_buffer_size false = .ok () := by
  decide +kernel

/-- `test_process_output_values_with_invalid_channel_values`, `src/ur20_4ro_co_255.rs:149-155`. -/
def rs_test_process_output_values_with_invalid_channel_values (oc : Bool) : Res Unit := do
  let t1 ← Mod.default oc
  let m := t1
  let t2 ← r_is_err ((ToDyn.toDyn oc m).process_output_values [ChannelValue.bit false, ChannelValue.bit true, ChannelValue.bit false, ChannelValue.decimal32 (F32.lit 0)])
  let _ ← r_assert t2
  pure ()

example : rs_test_process_output_values_with_invalid_channel_values true = .ok () ∧ rs_test_process_output_values_with_invalid_channel_values false = .ok () := by
  decide +kernel

/-- `test_process_output_values`, `src/ur20_4ro_co_255.rs:158-171`. -/
def rs_test_process_output_values (oc : Bool) : Res Unit := do
  let t1 ← Mod.default oc
  let m := t1
  let t2 ← r_unwrap ((ToDyn.toDyn oc m).process_output_values [ChannelValue.bit true, ChannelValue.bit false, ChannelValue.bit true, ChannelValue.bit true])
  let _ ← r_assert (decide (t2 = [13]))
  let t3 ← r_unwrap ((ToDyn.toDyn oc m).process_output_values [ChannelValue.bit true, ChannelValue.bit false, ChannelValue.bit true, ChannelValue.bit true])
  let _ ← r_assert (decide (t3 = [13]))
  pure ()

example : rs_test_process_output_values true = .ok () ∧ rs_test_process_output_values false = .ok () := by
  decide +kernel

/-- `module_type`, `src/ur20_4ro_co_255.rs:174-177`. -/
def rs_module_type (oc : Bool) : Res Unit := do
  let t1 ← Mod.default oc
  let m := t1
  let t2 ← (ToDyn.toDyn oc m).module_type
  let _ ← r_assert (decide (t2 = ModuleType.UR20_4RO_CO_255))
  pure ()

example : rs_module_type true = .ok () ∧ rs_module_type false = .ok () := by
  decide +kernel

/-- `test_channel_parameters_from_raw_data`, `src/ur20_4ro_co_255.rs:180-200`. -/
def rs_test_channel_parameters_from_raw_data (oc : Bool) : Res Unit := do
  let data : List Word := [0, 1, 0, 1]
  let t1 ← r_unwrap (parameters_from_raw_data oc data)
  let _ ← r_assert (decide (t1.length = 4))
  let t2 ← r_unwrap (parameters_from_raw_data oc data)
  let t3 ← r_index t2 0
  let t4 ← ChannelParameters.default oc
  let _ ← r_assert (decide (t3 = t4))
  let t5 ← r_unwrap (parameters_from_raw_data oc data)
  let t6 ← r_index t5 1
  let _ ← r_assert t6.substituteValue
  let t7 ← r_unwrap (parameters_from_raw_data oc data)
  let t8 ← r_index t7 2
  let _ ← r_assert (!t8.substituteValue)
  let t9 ← r_unwrap (parameters_from_raw_data oc data)
  let t10 ← r_index t9 3
  let _ ← r_assert t10.substituteValue
  pure ()

example : rs_test_channel_parameters_from_raw_data true = .ok () ∧ rs_test_channel_parameters_from_raw_data false = .ok () := by
  decide +kernel

/-- `test_parameters_from_invalid_raw_data`, `src/ur20_4ro_co_255.rs:203-212`. -/
def rs_test_parameters_from_invalid_raw_data (oc : Bool) : Res Unit := do
  let data : List Word := [0, 0, 0, 0]
  let t1 ← r_set data 0 2
  let data := t1
  let t2 ← r_is_err (parameters_from_raw_data oc data)
  let _ ← r_assert t2
  pure ()

example : rs_test_parameters_from_invalid_raw_data true = .ok () ∧ rs_test_parameters_from_invalid_raw_data false = .ok () := by
  decide +kernel

/-- `test_parameters_from_invalid_data_buffer_size`, `src/ur20_4ro_co_255.rs:215-222`. -/
def rs_test_parameters_from_invalid_data_buffer_size (oc : Bool) : Res Unit := do
  let data : List Word := List.replicate 0 0
  let t1 ← r_is_err (parameters_from_raw_data oc data)
  let _ ← r_assert t1
  let data : List Word := List.replicate 3 0
  let t2 ← r_is_err (parameters_from_raw_data oc data)
  let _ ← r_assert t2
  let data : List Word := List.replicate 4 0
  let t3 ← r_is_ok (parameters_from_raw_data oc data)
  let _ ← r_assert t3
  pure ()

example : rs_test_parameters_from_invalid_data_buffer_size true = .ok () ∧ rs_test_parameters_from_invalid_data_buffer_size false = .ok () := by
  decide +kernel

/-- `create_module_from_modbus_parameter_data`, `src/ur20_4ro_co_255.rs:225-235`. -/
def rs_create_module_from_modbus_parameter_data (oc : Bool) : Res Unit := do
  let data : List Word := [1, 0, 1, 0]
  let t1 ← r_unwrap (Mod.from_modbus_parameter_data oc data)
  let module := t1
  let t2 ← r_index module.chParams 0
  let _ ← r_assert t2.substituteValue
  let t3 ← r_index module.chParams 3
  let _ ← r_assert (!t3.substituteValue)
  pure ()

example : rs_create_module_from_modbus_parameter_data true = .ok () ∧ rs_create_module_from_modbus_parameter_data false = .ok () := by
  decide +kernel

end Ur20.Src.ur20_4ro_co_255
