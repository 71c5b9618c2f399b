import Verif.Source.Ur20_16do_p
import Verif.SourceTests.Prelude

/-!
# The unit tests of `src/ur20_16do_p.rs`, translated

Generated by `tools/tests2lean.py` from the source. Do not edit.
-/

set_option linter.unusedVariables false

namespace Ur20.Src.ur20_16do_p

/-- `test_process_output_values_with_invalid_channel_len`, `src/ur20_16do_p.rs:78-83`. -/
def rs_test_process_output_values_with_invalid_channel_len (oc : Bool) : Res Unit := do
  let m := ({} : Mod)
  let t1 ← r_is_err ((ToDyn.toDyn oc m).process_output_values [])
  let _ ← r_assert t1
  let t2 ← r_is_err ((ToDyn.toDyn oc m).process_output_values (List.replicate 15 (ChannelValue.bit true)))
  let _ ← r_assert t2
  let t3 ← r_is_ok ((ToDyn.toDyn oc m).process_output_values (List.replicate 16 (ChannelValue.bit true)))
  let _ ← r_assert t3
  pure ()

example : rs_test_process_output_values_with_invalid_channel_len true = .ok () ∧ rs_test_process_output_values_with_invalid_channel_len false = .ok () := by
  decide +kernel

/-- `test_process_output_data`, `src/ur20_16do_p.rs:86-98`. -/
def rs_test_process_output_data (oc : Bool) : Res Unit := do
  let m := ({} : Mod)
  let t1 ← r_unwrap ((ToDyn.toDyn oc m).process_output_data [65535])
  let _ ← r_assert (decide (t1 = (List.replicate 16 (ChannelValue.bit true))))
  let t2 ← r_unwrap ((ToDyn.toDyn oc m).process_output_data [8485])
  let res := t2
  let t3 ← r_index res 0
  let _ ← r_assert (decide (t3 = (ChannelValue.bit true)))
  let t4 ← r_index res 1
  let _ ← r_assert (decide (t4 = (ChannelValue.bit false)))
  let t5 ← r_index res 5
  let _ ← r_assert (decide (t5 = (ChannelValue.bit true)))
  let t6 ← r_index res 8
  let _ ← r_assert (decide (t6 = (ChannelValue.bit true)))
  let t7 ← r_index res 13
  let _ ← r_assert (decide (t7 = (ChannelValue.bit true)))
  pure ()

example : rs_test_process_output_data true = .ok () ∧ rs_test_process_output_data false = .ok () := by
  decide +kernel

/-- `test_process_output_data_with_invalid_buffer_size`, `src/ur20_16do_p.rs:101-104`. -/
def rs_test_process_output_data_with_invalid_buffer_size (oc : Bool) : Res Unit := do
  let m := ({} : Mod)
  let t1 ← r_is_err ((ToDyn.toDyn oc m).process_output_data (List.replicate 2 0))
  let _ ← r_assert t1
  pure ()

example : rs_test_process_output_data_with_invalid_buffer_size true = .ok () ∧ rs_test_process_output_data_with_invalid_buffer_size false = .ok () := by
  decide +kernel

/-- `test_process_output_values_with_invalid_channel_values`, `src/ur20_16do_p.rs:107-110`. -/
def rs_test_process_output_values_with_invalid_channel_values (oc : Bool) : Res Unit := do
  let m := ({} : Mod)
  let t1 ← r_is_err ((ToDyn.toDyn oc m).process_output_values (List.replicate 16 (ChannelValue.decimal32 (F32.lit 0))))
  let _ ← r_assert t1
  pure ()

example : rs_test_process_output_values_with_invalid_channel_values true = .ok () ∧ rs_test_process_output_values_with_invalid_channel_values false = .ok () := by
  decide +kernel

/-- `test_process_output_values`, `src/ur20_16do_p.rs:113-133`. -/
def rs_test_process_output_values (oc : Bool) : Res Unit := do
  let m := ({} : Mod)
  let vals : List ChannelValue := List.replicate 16 (ChannelValue.bit false)
  let t1 ← r_set vals 0 (ChannelValue.bit true)
  let vals := t1
  let t2 ← r_set vals 2 (ChannelValue.bit true)
  let vals := t2
  let t3 ← r_set vals 3 (ChannelValue.bit true)
  let vals := t3
  let t4 ← r_set vals 13 (ChannelValue.bit true)
  let vals := t4
  let t5 ← r_unwrap ((ToDyn.toDyn oc m).process_output_values vals)
  let _ ← r_assert (decide (t5 = [8205]))
  let t6 ← r_set vals 7 (ChannelValue.bit true)
  let vals := t6
  let t7 ← r_set vals 8 (ChannelValue.bit true)
  let vals := t7
  let t8 ← r_unwrap ((ToDyn.toDyn oc m).process_output_values vals)
  let _ ← r_assert (decide (t8 = [8589]))
  pure ()

example : rs_test_process_output_values true = .ok () ∧ rs_test_process_output_values false = .ok () := by
  decide +kernel

/-- `module_type`, `src/ur20_16do_p.rs:136-139`. -/
def rs_module_type (oc : Bool) : Res Unit := do
  let m := ({} : Mod)
  let t1 ← (ToDyn.toDyn oc m).module_type
  let _ ← r_assert (decide (t1 = ModuleType.UR20_16DO_P))
  pure ()

example : rs_module_type true = .ok () ∧ rs_module_type false = .ok () := by
  decide +kernel

/-- `create_module_from_modbus_parameter_data`, `src/ur20_16do_p.rs:142-145`. -/
def rs_create_module_from_modbus_parameter_data (oc : Bool) : Res Unit := do
  let t1 ← r_is_ok (Mod.from_modbus_parameter_data oc [])
  let _ ← r_assert t1
  let t2 ← r_is_err (Mod.from_modbus_parameter_data oc [0])
  let _ ← r_assert t2
  pure ()

example : rs_create_module_from_modbus_parameter_data true = .ok () ∧ rs_create_module_from_modbus_parameter_data false = .ok () := by
  decide +kernel

end Ur20.Src.ur20_16do_p
