import Verif.Source.Ur20_2fcnt_100
import Verif.SourceTests.Prelude

/-!
# The unit tests of `src/ur20_2fcnt_100.rs`, translated

Generated by `tools/tests2lean.py` from the source. Do not edit.
-/

set_option linter.unusedVariables false

namespace Ur20.Src.ur20_2fcnt_100

deriving instance DecidableEq for ChannelParameters

/-- `test_channel_parameters_from_raw_data`, `src/ur20_2fcnt_100.rs:264-278`. -/
def rs_test_channel_parameters_from_raw_data (oc : Bool) : Res Unit := do
  let t1 ← r_unwrap (parameters_from_raw_data oc [0, 0])
  let _ ← r_assert (decide (t1.length = 2))
  let t2 ← r_unwrap (parameters_from_raw_data oc [0, 0])
  let t3 ← ChannelParameters.default oc
  let _ ← r_assert (decide (t2 = (List.replicate 2 t3)))
  let t4 ← r_unwrap (parameters_from_raw_data oc [0, 1])
  let t5 ← r_index t4 1
  let _ ← r_assert (decide (t5.inputFilter = InputFilter.us11))
  let t6 ← r_unwrap (parameters_from_raw_data oc [2, 1])
  let t7 ← r_index t6 0
  let _ ← r_assert (decide (t7.inputFilter = InputFilter.us21))
  pure ()

example : rs_test_channel_parameters_from_raw_data true = .ok () ∧ rs_test_channel_parameters_from_raw_data false = .ok () := by
  decide +kernel

/-- `test_parameters_from_invalid_data_buffer_size`, `src/ur20_2fcnt_100.rs:281-285`. -/
def rs_test_parameters_from_invalid_data_buffer_size (oc : Bool) : Res Unit := do
  let t1 ← r_is_err (parameters_from_raw_data oc (List.replicate 0 0))
  let _ ← r_assert t1
  let t2 ← r_is_err (parameters_from_raw_data oc (List.replicate 1 0))
  let _ ← r_assert t2
  let t3 ← r_is_ok (parameters_from_raw_data oc (List.replicate 2 0))
  let _ ← r_assert t3
  pure ()

example : rs_test_parameters_from_invalid_data_buffer_size true = .ok () ∧ rs_test_parameters_from_invalid_data_buffer_size false = .ok () := by
  decide +kernel

/-- `process_input_byte_count`, `src/ur20_2fcnt_100.rs:288-291`. -/
def rs_process_input_byte_count (oc : Bool) : Res Unit := do
  let t1 ← Mod.default oc
  let m := t1
  let t2 ← (ToDyn.toDyn oc m).process_input_byte_count
  let _ ← r_assert (decide (t2 = 20))
  pure ()

example : rs_process_input_byte_count true = .ok () ∧ rs_process_input_byte_count false = .ok () := by
  decide +kernel

/-- `process_output_byte_count`, `src/ur20_2fcnt_100.rs:294-297`. -/
def rs_process_output_byte_count (oc : Bool) : Res Unit := do
  let t1 ← Mod.default oc
  let m := t1
  let t2 ← (ToDyn.toDyn oc m).process_output_byte_count
  let _ ← r_assert (decide (t2 = 12))
  pure ()

example : rs_process_output_byte_count true = .ok () ∧ rs_process_output_byte_count false = .ok () := by
  decide +kernel

/-- `test_process_input_data_with_invalid_buffer_size`, `src/ur20_2fcnt_100.rs:300-306`. -/
def rs_test_process_input_data_with_invalid_buffer_size (oc : Bool) : Res Unit := do
  let t1 ← Mod.default oc
  let m := t1
  let t2 ← r_is_err ((ToDyn.toDyn oc m).process_input_data [])
  let _ ← r_assert t2
  let t3 ← r_is_err ((ToDyn.toDyn oc m).process_input_data (List.replicate 2 0))
  let _ ← r_assert t3
  let t4 ← r_is_err ((ToDyn.toDyn oc m).process_input_data (List.replicate 9 0))
  let _ ← r_assert t4
  let t5 ← r_is_ok ((ToDyn.toDyn oc m).process_input_data (List.replicate 10 0))
  let _ ← r_assert t5
  pure ()

example : rs_test_process_input_data_with_invalid_buffer_size true = .ok () ∧ rs_test_process_input_data_with_invalid_buffer_size false = .ok () := by
  decide +kernel

/-- `test_process_input_data_with_missing_channel_parameters`, `src/ur20_2fcnt_100.rs:309-312`. -/
def rs_test_process_input_data_with_missing_channel_parameters (oc : Bool) : Res Unit := do
  let m := ({ chParams := [] } : Mod)
  let t1 ← r_is_err ((ToDyn.toDyn oc m).process_input_data (List.replicate 10 0))
  let _ ← r_assert t1
  pure ()

example : rs_test_process_input_data_with_missing_channel_parameters true = .ok () ∧ rs_test_process_input_data_with_missing_channel_parameters false = .ok () := by
  decide +kernel

/-- `test_process_input_data`, `src/ur20_2fcnt_100.rs:315-346`. -/
def rs_test_process_input_data (oc : Bool) : Res Unit := do
  let t1 ← Mod.default oc
  let m := t1
  let data : List Word := [0, 0, 0, 0, 0, 0, 0, 0, 0, 0]
  let t2 ← r_unwrap ((ToDyn.toDyn oc m).process_input_data data)
  let res := t2
  let inactive := ChannelValue.fcntIn ({ count := 0, active := false, duration := some (r_duration 0 0) } : FcntIn)
  let t3 ← r_index res 0
  let _ ← r_assert (decide (t3 = inactive))
  let t4 ← r_index res 1
  let _ ← r_assert (decide (t4 = inactive))
  let t5 ← r_set data 1 1200
  let data := t5
  let t6 ← r_set data 3 3
  let data := t6
  let t7 ← util.set_bit_16 oc 0 8
  let t8 ← r_set data 8 t7
  let data := t8
  let active := ChannelValue.fcntIn ({ count := 3, active := true, duration := some (r_from_micros 150) } : FcntIn)
  let t9 ← r_unwrap ((ToDyn.toDyn oc m).process_input_data data)
  let res := t9
  let t10 ← r_index res 0
  let _ ← r_assert (decide (t10 = active))
  let t11 ← r_index res 1
  let _ ← r_assert (decide (t11 = inactive))
  pure ()

example : rs_test_process_input_data true = .ok () ∧ rs_test_process_input_data false = .ok () := by
  decide +kernel

/-- `test_process_input_data_min_duration`, `src/ur20_2fcnt_100.rs:349-360`. -/
def rs_test_process_input_data_min_duration (oc : Bool) : Res Unit := do
  let t1 ← Mod.default oc
  let m := t1
  let data : List Word := List.replicate 10 0
  let t2 ← r_set data 1 8
  let data := t2
  let expected := ChannelValue.fcntIn ({ count := 0, active := false, duration := some (r_from_micros 1) } : FcntIn)
  let t3 ← r_unwrap ((ToDyn.toDyn oc m).process_input_data data)
  let t4 ← r_index t3 0
  let _ ← r_assert (decide (t4 = expected))
  pure ()

example : rs_test_process_input_data_min_duration true = .ok () ∧ rs_test_process_input_data_min_duration false = .ok () := by
  decide +kernel

/-- `test_process_input_data_max_duration`, `src/ur20_2fcnt_100.rs:363-382`. -/
def rs_test_process_input_data_max_duration (oc : Bool) : Res Unit := do
  let t1 ← Mod.default oc
  let m := t1
  let data : List Word := List.replicate 10 0
  let t2 ← r_set data 0 2047
  let data := t2
  let t3 ← r_set data 1 65534
  let data := t3
  let t4 ← r_set data 4 2047
  let data := t4
  let t5 ← r_set data 5 65535
  let data := t5
  let expected_0 := ChannelValue.fcntIn ({ count := 0, active := false, duration := some (r_from_nanos 16777215750) } : FcntIn)
  let expected_1 := ChannelValue.fcntIn ({ count := 0, active := false, duration := none } : FcntIn)
  let t6 ← r_unwrap ((ToDyn.toDyn oc m).process_input_data data)
  let t7 ← r_index t6 0
  let _ ← r_assert (decide (t7 = expected_0))
  let t8 ← r_unwrap ((ToDyn.toDyn oc m).process_input_data data)
  let t9 ← r_index t8 1
  let _ ← r_assert (decide (t9 = expected_1))
  pure ()

example : rs_test_process_input_data_max_duration true = .ok () ∧ rs_test_process_input_data_max_duration false = .ok () := by
  decide +kernel

/-- `test_process_output_data_with_invalid_buffer_size`, `src/ur20_2fcnt_100.rs:385-391`. -/
def rs_test_process_output_data_with_invalid_buffer_size (oc : Bool) : Res Unit := do
  let t1 ← Mod.default oc
  let m := t1
  let t2 ← r_is_err ((ToDyn.toDyn oc m).process_output_data [])
  let _ ← r_assert t2
  let t3 ← r_is_err ((ToDyn.toDyn oc m).process_output_data (List.replicate 5 0))
  let _ ← r_assert t3
  let t4 ← r_is_err ((ToDyn.toDyn oc m).process_output_data (List.replicate 7 0))
  let _ ← r_assert t4
  let t5 ← r_is_ok ((ToDyn.toDyn oc m).process_output_data (List.replicate 6 0))
  let _ ← r_assert t5
  pure ()

example : rs_test_process_output_data_with_invalid_buffer_size true = .ok () ∧ rs_test_process_output_data_with_invalid_buffer_size false = .ok () := by
  decide +kernel

/-- `test_process_output_data`, `src/ur20_2fcnt_100.rs:394-444`. -/
def rs_test_process_output_data (oc : Bool) : Res Unit := do
  let t1 ← Mod.default oc
  let m := t1
  let data : List Word := [0, 0, 0, 0, 0, 0]
  let t2 ← r_unwrap ((ToDyn.toDyn oc m).process_output_data data)
  let res := t2
  let inactive := ChannelValue.fcntOut ({ duration := r_duration 0 0, command := none } : FcntOut)
  let t3 ← r_index res 0
  let _ ← r_assert (decide (t3 = inactive))
  let t4 ← r_index res 1
  let _ ← r_assert (decide (t4 = inactive))
  let t5 ← r_set data 1 120
  let data := t5
  let t6 ← r_set data 3 3
  let data := t6
  let dur_120 := ChannelValue.fcntOut ({ duration := r_duration 0 120000, command := none } : FcntOut)
  let dur_3 := ChannelValue.fcntOut ({ duration := r_duration 0 3000, command := none } : FcntOut)
  let t7 ← r_unwrap ((ToDyn.toDyn oc m).process_output_data data)
  let res := t7
  let t8 ← r_index res 0
  let _ ← r_assert (decide (t8 = dur_120))
  let t9 ← r_index res 1
  let _ ← r_assert (decide (t9 = dur_3))
  let start := ChannelValue.fcntOut ({ duration := r_duration 0 0, command := some Command.start } : FcntOut)
  let stop := ChannelValue.fcntOut ({ duration := r_duration 0 0, command := some Command.stop } : FcntOut)
  let t10 ← r_set data 1 0
  let data := t10
  let t11 ← r_set data 3 0
  let data := t11
  let t12 ← util.set_bit_16 oc 0 8
  let t13 ← r_set data 4 t12
  let data := t13
  let t14 ← util.set_bit_16 oc 0 9
  let t15 ← r_set data 5 t14
  let data := t15
  let t16 ← r_unwrap ((ToDyn.toDyn oc m).process_output_data data)
  let res := t16
  let t17 ← r_index res 0
  let _ ← r_assert (decide (t17 = start))
  let t18 ← r_index res 1
  let _ ← r_assert (decide (t18 = stop))
  pure ()

example : rs_test_process_output_data true = .ok () ∧ rs_test_process_output_data false = .ok () := by
  decide +kernel

/-- `test_process_output_values_with_invalid_channel_len`, `src/ur20_2fcnt_100.rs:447-454`. -/
def rs_test_process_output_values_with_invalid_channel_len (oc : Bool) : Res Unit := do
  let t1 ← Mod.default oc
  let m := t1
  let t2 ← ProcessOutput.default oc
  let out := t2
  let t3 ← r_is_err ((ToDyn.toDyn oc m).process_output_values [])
  let _ ← r_assert t3
  let t4 ← ChannelValue.from_ProcessOutput oc out
  let t5 ← r_is_err ((ToDyn.toDyn oc m).process_output_values (List.replicate 1 t4))
  let _ ← r_assert t5
  let t6 ← ChannelValue.from_ProcessOutput oc out
  let t7 ← r_is_err ((ToDyn.toDyn oc m).process_output_values (List.replicate 3 t6))
  let _ ← r_assert t7
  let t8 ← ChannelValue.from_ProcessOutput oc out
  let t9 ← r_is_ok ((ToDyn.toDyn oc m).process_output_values (List.replicate 2 t8))
  let _ ← r_assert t9
  pure ()

example : rs_test_process_output_values_with_invalid_channel_len true = .ok () ∧ rs_test_process_output_values_with_invalid_channel_len false = .ok () := by
  decide +kernel

/-- `test_process_output_values_with_missing_channel_parameters`, `src/ur20_2fcnt_100.rs:457-461`. -/
def rs_test_process_output_values_with_missing_channel_parameters (oc : Bool) : Res Unit := do
  let m := ({ chParams := [] } : Mod)
  let t1 ← ProcessOutput.default oc
  let out := t1
  let t2 ← ChannelValue.from_ProcessOutput oc out
  let t3 ← r_is_err ((ToDyn.toDyn oc m).process_output_values (List.replicate 2 t2))
  let _ ← r_assert t3
  pure ()

example : rs_test_process_output_values_with_missing_channel_parameters true = .ok () ∧ rs_test_process_output_values_with_missing_channel_parameters false = .ok () := by
  decide +kernel

/-- `test_process_output_values_with_invalid_channel_values`, `src/ur20_2fcnt_100.rs:464-470`. -/
def rs_test_process_output_values_with_invalid_channel_values (oc : Bool) : Res Unit := do
  let t1 ← Mod.default oc
  let m := t1
  let t2 ← r_is_err ((ToDyn.toDyn oc m).process_output_values [ChannelValue.bit false, ChannelValue.decimal32 (F32.lit 0)])
  let _ ← r_assert t2
  pure ()

example : rs_test_process_output_values_with_invalid_channel_values true = .ok () ∧ rs_test_process_output_values_with_invalid_channel_values false = .ok () := by
  decide +kernel

/-- `test_process_output_values`, `src/ur20_2fcnt_100.rs:473-507`. -/
def rs_test_process_output_values (oc : Bool) : Res Unit := do
  let t1 ← Mod.default oc
  let m := t1
  let t2 ← ProcessOutput.default oc
  let ch_0 := t2
  let t3 ← ProcessOutput.default oc
  let ch_1 := t3
  let t4 ← ChannelValue.from_ProcessOutput oc ch_0
  let t5 ← ChannelValue.from_ProcessOutput oc ch_1
  let t6 ← r_unwrap ((ToDyn.toDyn oc m).process_output_values [t4, t5])
  let _ ← r_assert (decide (t6 = (List.replicate 6 0)))
  let t7 ← ProcessOutput.default oc
  let ch_0 := t7
  let t8 ← ProcessOutput.default oc
  let ch_1 := t8
  let ch_0 := { ch_0 with duration := r_duration 2 0 }
  let ch_1 := { ch_1 with duration := r_duration 0 1000 }
  let t9 ← ChannelValue.from_ProcessOutput oc ch_0
  let t10 ← ChannelValue.from_ProcessOutput oc ch_1
  let t11 ← r_unwrap ((ToDyn.toDyn oc m).process_output_values [t9, t10])
  let _ ← r_assert (decide (t11 = [30, 33920, 0, 1, 0, 0]))
  let t12 ← ProcessOutput.default oc
  let ch_0 := t12
  let t13 ← ProcessOutput.default oc
  let ch_1 := t13
  let ch_0 := { ch_0 with duration := r_duration 0 1000 }
  let ch_0 := { ch_0 with command := some Command.start }
  let ch_1 := { ch_1 with duration := r_duration 8 388607000 }
  let ch_1 := { ch_1 with command := some Command.stop }
  let t14 ← ChannelValue.from_ProcessOutput oc ch_0
  let t15 ← ChannelValue.from_ProcessOutput oc ch_1
  let t16 ← r_unwrap ((ToDyn.toDyn oc m).process_output_values [t14, t15])
  let _ ← r_assert (decide (t16 = [0, 1, 127, 65535, 256, 512]))
  pure ()

example : rs_test_process_output_values true = .ok () ∧ rs_test_process_output_values false = .ok () := by
  decide +kernel

/-- `test_process_output_values_with_invalid_duration`, `src/ur20_2fcnt_100.rs:510-520`. -/
def rs_test_process_output_values_with_invalid_duration (oc : Bool) : Res Unit := do
  let t1 ← Mod.default oc
  let m := t1
  let t2 ← ProcessOutput.default oc
  let ch_0 := t2
  let t3 ← ProcessOutput.default oc
  let ch_1 := t3
  let ch_0 := { ch_0 with duration := r_duration 0 1000 }
  let ch_1 := { ch_1 with duration := r_duration 8 388608000 }
  let t4 ← ChannelValue.from_ProcessOutput oc ch_0
  let t5 ← ChannelValue.from_ProcessOutput oc ch_1
  let t6 ← r_is_err ((ToDyn.toDyn oc m).process_output_values [t4, t5])
  let _ ← r_assert t6
  pure ()

example : rs_test_process_output_values_with_invalid_duration true = .ok () ∧ rs_test_process_output_values_with_invalid_duration false = .ok () := by
  decide +kernel

/-- `test_process_input_hertz`, `src/ur20_2fcnt_100.rs:523-548`. -/
def rs_test_process_input_hertz (oc : Bool) : Res Unit := do
  let input := ({ count := 100, active := true, duration := some (r_duration 1 0) } : FcntIn)
  let t1 ← ProcessInput.hertz oc input
  let t2 ← r_unwrap_opt t1
  let _ ← r_assert (decide (t2 = (F32.lit 100)))
  let input := ({ count := 5, active := true, duration := some (r_duration 0 200000) } : FcntIn)
  let t3 ← ProcessInput.hertz oc input
  let t4 ← r_unwrap_opt t3
  let _ ← r_assert (decide (t4 = (F32.lit 25000)))
  let input := ({ count := (BitVec.ofNat 32 (2 ^ 32 - 1)), active := true, duration := some (r_duration 0 1000) } : FcntIn)
  let t5 ← ProcessInput.hertz oc input
  let t6 ← r_unwrap_opt t5
  let _ ← r_assert (decide (t6 = (F32.lit 4294967295000000)))
  let input := ({ count := 5, active := true, duration := none } : FcntIn)
  let t7 ← ProcessInput.hertz oc input
  let _ ← r_assert (decide (t7 = none))
  pure ()

example : rs_test_process_input_hertz true = .ok () ∧ rs_test_process_input_hertz false = .ok () := by
  decide +kernel

end Ur20.Src.ur20_2fcnt_100
