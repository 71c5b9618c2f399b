import Verif.Source.Ur20_pf_o_1di_sil
import Verif.SourceTests.Prelude

/-!
# The unit tests of `src/ur20_pf_o_1di_sil.rs`, translated

Generated by `tools/tests2lean.py` from the source. Do not edit.
-/

set_option linter.unusedVariables false

namespace Ur20.Src.ur20_pf_o_1di_sil

/-- `process_input_byte_count`, `src/ur20_pf_o_1di_sil.rs:87-90`. -/
def rs_process_input_byte_count (oc : Bool) : Res Unit := do
  let m := ({} : Mod)
  let t1 ← (ToDyn.toDyn oc m).process_input_byte_count
  let _ ← r_assert (decide (t1 = 4))
  pure ()

example : rs_process_input_byte_count true = .ok () ∧ rs_process_input_byte_count false = .ok () := by
  decide +kernel

/-- `process_output_byte_count`, `src/ur20_pf_o_1di_sil.rs:93-96`. -/
def rs_process_output_byte_count (oc : Bool) : Res Unit := do
  let m := ({} : Mod)
  let t1 ← (ToDyn.toDyn oc m).process_output_byte_count
  let _ ← r_assert (decide (t1 = 0))
  pure ()

example : rs_process_output_byte_count true = .ok () ∧ rs_process_output_byte_count false = .ok () := by
  decide +kernel

/-- `test_process_input_data_with_invalid_buffer_size`, `src/ur20_pf_o_1di_sil.rs:99-106`. -/
def rs_test_process_input_data_with_invalid_buffer_size (oc : Bool) : Res Unit := do
  let m := ({} : Mod)
  let t1 ← r_is_err ((ToDyn.toDyn oc m).process_input_data (List.replicate 0 0))
  let _ ← r_assert t1
  let t2 ← r_is_err ((ToDyn.toDyn oc m).process_input_data (List.replicate 1 0))
  let _ ← r_assert t2
  let t3 ← r_is_ok ((ToDyn.toDyn oc m).process_input_data (List.replicate 2 0))
  let _ ← r_assert t3
  let t4 ← r_is_err ((ToDyn.toDyn oc m).process_input_data (List.replicate 3 0))
  let _ ← r_assert t4
  let t5 ← r_is_err ((ToDyn.toDyn oc m).process_input_data (List.replicate 4 0))
  let _ ← r_assert t5
  pure ()

example : rs_test_process_input_data_with_invalid_buffer_size true = .ok () ∧ rs_test_process_input_data_with_invalid_buffer_size false = .ok () := by
  decide +kernel

/-- `test_process_input_data`, `src/ur20_pf_o_1di_sil.rs:109-158`. -/
def rs_test_process_input_data (oc : Bool) : Res Unit := do
  let m := ({} : Mod)
  let data : List Word := [1341, 0]
  let t1 ← r_unwrap ((ToDyn.toDyn oc m).process_input_data data)
  let res := t1
  let _ ← r_assert (decide (res.length = 1))
  let t2 ← r_index res 0
  let _ ← r_assert (decide (t2 = (ChannelValue.silPFIn ({ safetyInput := true, autostart := true, manualStart := true, safetyInputChannel1 := true, safetyInputChannel2 := true, volt24SafeOutput := true, volt24Dc := true } : SilIn))))
  let data : List Word := [280, 0]
  let t3 ← r_unwrap ((ToDyn.toDyn oc m).process_input_data data)
  let res := t3
  let _ ← r_assert (decide (res.length = 1))
  let t4 ← r_index res 0
  let _ ← r_assert (decide (t4 = (ChannelValue.silPFIn ({ safetyInput := false, autostart := false, manualStart := true, safetyInputChannel1 := true, safetyInputChannel2 := false, volt24SafeOutput := true, volt24Dc := false } : SilIn))))
  let data : List Word := [0, 0]
  let t5 ← r_unwrap ((ToDyn.toDyn oc m).process_input_data data)
  let res := t5
  let _ ← r_assert (decide (res.length = 1))
  let t6 ← r_index res 0
  let _ ← r_assert (decide (t6 = (ChannelValue.silPFIn ({ safetyInput := false, autostart := false, manualStart := false, safetyInputChannel1 := false, safetyInputChannel2 := false, volt24SafeOutput := false, volt24Dc := false } : SilIn))))
  pure ()

example : rs_test_process_input_data true = .ok () ∧ rs_test_process_input_data false = .ok () := by
  decide +kernel

/-- `test_process_output_data_with_invalid_buffer_size`, `src/ur20_pf_o_1di_sil.rs:161-167`. -/
def rs_test_process_output_data_with_invalid_buffer_size (oc : Bool) : Res Unit := do
  let m := ({} : Mod)
  let t1 ← r_is_ok ((ToDyn.toDyn oc m).process_output_data [])
  let _ ← r_assert t1
  let t2 ← r_is_err ((ToDyn.toDyn oc m).process_output_data (List.replicate 1 0))
  let _ ← r_assert t2
  let t3 ← r_is_err ((ToDyn.toDyn oc m).process_output_data (List.replicate 2 0))
  let _ ← r_assert t3
  let t4 ← r_is_err ((ToDyn.toDyn oc m).process_output_data (List.replicate 3 0))
  let _ ← r_assert t4
  pure ()

example : rs_test_process_output_data_with_invalid_buffer_size true = .ok () ∧ rs_test_process_output_data_with_invalid_buffer_size false = .ok () := by
  decide +kernel

end Ur20.Src.ur20_pf_o_1di_sil
