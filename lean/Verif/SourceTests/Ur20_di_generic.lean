import Verif.Source.Ur20_di_generic
import Verif.SourceTests.Prelude

/-!
# The unit tests of `src/ur20_di_generic.rs`, translated

Generated by `tools/tests2lean.py` from the source. Do not edit.
-/

set_option linter.unusedVariables false

namespace Ur20.Src.ur20_di_generic

deriving instance DecidableEq for ChannelParameters

/-- `test_process_input_data`, `src/ur20_di_generic.rs:126-134`. -/
def rs_test_process_input_data (oc : Bool) : Res Unit := do
  let t1 ← Mod.default oc ModuleType.UR20_4DI_P
  let m := t1
  let t2 ← r_is_err ((ToDyn.toDyn oc m).process_input_data [])
  let _ ← r_assert t2
  let data : List Word := [4]
  let t3 ← r_unwrap ((ToDyn.toDyn oc m).process_input_data data)
  let _ ← r_assert (decide (t3 = [ChannelValue.bit false, ChannelValue.bit false, ChannelValue.bit true, ChannelValue.bit false]))
  pure ()

example : rs_test_process_input_data true = .ok () ∧ rs_test_process_input_data false = .ok () := by
  decide +kernel

/-- `test_process_input_data_8`, `src/ur20_di_generic.rs:137-154`. -/
def rs_test_process_input_data_8 (oc : Bool) : Res Unit := do
  let t1 ← Mod.default oc ModuleType.UR20_8DI_P_2W
  let m := t1
  let t2 ← r_is_err ((ToDyn.toDyn oc m).process_input_data [])
  let _ ← r_assert t2
  let data : List Word := [212]
  let t3 ← r_unwrap ((ToDyn.toDyn oc m).process_input_data data)
  let _ ← r_assert (decide (t3 = [ChannelValue.bit false, ChannelValue.bit false, ChannelValue.bit true, ChannelValue.bit false, ChannelValue.bit true, ChannelValue.bit false, ChannelValue.bit true, ChannelValue.bit true]))
  pure ()

example : rs_test_process_input_data_8 true = .ok () ∧ rs_test_process_input_data_8 false = .ok () := by
  decide +kernel

/-- `test_process_output_data`, `src/ur20_di_generic.rs:157-164`. -/
def rs_test_process_output_data (oc : Bool) : Res Unit := do
  let t1 ← Mod.default oc ModuleType.UR20_4DI_P
  let m := t1
  let t2 ← r_is_err ((ToDyn.toDyn oc m).process_output_data (List.replicate 4 0))
  let _ ← r_assert t2
  let t3 ← r_unwrap ((ToDyn.toDyn oc m).process_output_data [])
  let _ ← r_assert (decide (t3 = (List.replicate 4 ChannelValue.none)))
  pure ()

example : rs_test_process_output_data true = .ok () ∧ rs_test_process_output_data false = .ok () := by
  decide +kernel

/-- `test_process_output_values`, `src/ur20_di_generic.rs:167-176`. -/
def rs_test_process_output_values (oc : Bool) : Res Unit := do
  let t1 ← Mod.default oc ModuleType.UR20_4DI_P
  let m := t1
  let t2 ← r_is_err ((ToDyn.toDyn oc m).process_output_values [ChannelValue.bit true])
  let _ ← r_assert t2
  let t3 ← r_unwrap ((ToDyn.toDyn oc m).process_output_values [])
  let _ ← r_assert (decide (t3 = []))
  let t4 ← r_unwrap ((ToDyn.toDyn oc m).process_output_values (List.replicate 4 ChannelValue.none))
  let _ ← r_assert (decide (t4 = []))
  pure ()

example : rs_test_process_output_values true = .ok () ∧ rs_test_process_output_values false = .ok () := by
  decide +kernel

/-- `test_channel_parameters_from_raw_data`, `src/ur20_di_generic.rs:179-211`. -/
def rs_test_channel_parameters_from_raw_data (oc : Bool) : Res Unit := do
  let data : List Word := [2, 3, 4, 0]
  let t1 ← r_unwrap (parameters_from_raw_data oc ModuleType.UR20_4DI_P data)
  let _ ← r_assert (decide (t1.length = 4))
  let t2 ← r_unwrap (parameters_from_raw_data oc ModuleType.UR20_4DI_P data)
  let t3 ← r_index t2 0
  let t4 ← ChannelParameters.default oc
  let _ ← r_assert (decide (t3 = t4))
  let t5 ← r_unwrap (parameters_from_raw_data oc ModuleType.UR20_4DI_P data)
  let t6 ← r_index t5 1
  let _ ← r_assert (decide (t6.inputDelay = InputDelay.ms10))
  let t7 ← r_unwrap (parameters_from_raw_data oc ModuleType.UR20_4DI_P data)
  let t8 ← r_index t7 2
  let _ ← r_assert (decide (t8.inputDelay = InputDelay.ms20))
  let t9 ← r_unwrap (parameters_from_raw_data oc ModuleType.UR20_4DI_P data)
  let t10 ← r_index t9 3
  let _ ← r_assert (decide (t10.inputDelay = InputDelay.no))
  pure ()

example : rs_test_channel_parameters_from_raw_data true = .ok () ∧ rs_test_channel_parameters_from_raw_data false = .ok () := by
  decide +kernel

/-- `test_parameters_from_invalid_raw_data`, `src/ur20_di_generic.rs:214-223`. -/
def rs_test_parameters_from_invalid_raw_data (oc : Bool) : Res Unit := do
  let data : List Word := [0, 0, 0, 0]
  let t1 ← r_set data 0 6
  let data := t1
  let t2 ← r_is_err (parameters_from_raw_data oc ModuleType.UR20_4DI_P data)
  let _ ← r_assert t2
  pure ()

example : rs_test_parameters_from_invalid_raw_data true = .ok () ∧ rs_test_parameters_from_invalid_raw_data false = .ok () := by
  decide +kernel

/-- `test_parameters_from_invalid_data_buffer_size`, `src/ur20_di_generic.rs:226-233`. -/
def rs_test_parameters_from_invalid_data_buffer_size (oc : Bool) : Res Unit := do
  let data : List Word := List.replicate 0 0
  let t1 ← r_is_err (parameters_from_raw_data oc ModuleType.UR20_4DI_P data)
  let _ ← r_assert t1
  let data : List Word := List.replicate 3 0
  let t2 ← r_is_err (parameters_from_raw_data oc ModuleType.UR20_4DI_P data)
  let _ ← r_assert t2
  let data : List Word := List.replicate 4 0
  let t3 ← r_is_ok (parameters_from_raw_data oc ModuleType.UR20_4DI_P data)
  let _ ← r_assert t3
  pure ()

example : rs_test_parameters_from_invalid_data_buffer_size true = .ok () ∧ rs_test_parameters_from_invalid_data_buffer_size false = .ok () := by
  decide +kernel

/-- `create_module_from_modbus_parameter_data`, `src/ur20_di_generic.rs:236-246`. -/
def rs_create_module_from_modbus_parameter_data (oc : Bool) : Res Unit := do
  let data : List Word := [0, 3, 4, 5]
  let t1 ← r_unwrap (Mod.from_modbus_parameter_data oc ModuleType.UR20_4DI_P data)
  let module := t1
  let t2 ← r_index module.chParams 0
  let _ ← r_assert (decide (t2.inputDelay = InputDelay.no))
  let t3 ← r_index module.chParams 3
  let _ ← r_assert (decide (t3.inputDelay = InputDelay.ms40))
  pure ()

example : rs_create_module_from_modbus_parameter_data true = .ok () ∧ rs_create_module_from_modbus_parameter_data false = .ok () := by
  decide +kernel

/-- `create_module_from_modbus_parameter_data_8`, `src/ur20_di_generic.rs:249-270`. -/
def rs_create_module_from_modbus_parameter_data_8 (oc : Bool) : Res Unit := do
  let data : List Word := [0, 1, 2, 3, 4, 5, 2, 2]
  let t1 ← r_unwrap (Mod.from_modbus_parameter_data oc ModuleType.UR20_8DI_P_2W data)
  let module := t1
  let t2 := r_map (r_iter module.chParams)
      (fun p =>
        (pure p.inputDelay))
  let t3 ← r_collect t2
  let input_delays := t3
  let t4 ← ChannelParameters.default oc
  let _ ← r_assert (decide (input_delays = [InputDelay.no, InputDelay.us300, InputDelay.ms3, InputDelay.ms10, InputDelay.ms20, InputDelay.ms40, InputDelay.ms3, t4.inputDelay]))
  pure ()

example : rs_create_module_from_modbus_parameter_data_8 true = .ok () ∧ rs_create_module_from_modbus_parameter_data_8 false = .ok () := by
  decide +kernel

end Ur20.Src.ur20_di_generic
