import Verif.Conformance.Basic

/-!
# Tests of the counter module `src/ur20_2fcnt_100.rs`
-/

namespace Ur20.Conformance

open ChannelValue

/-- `Mod::default()`. -/
def fcnt : Module := .fcnt Fcnt.Mod.default

/-- `Duration::new(secs, nanos)`. -/
def dur (secs nanos : Nat) : Nat := secs * 1000000000 + nanos

/-- `test_channel_parameters_from_raw_data`. -/
example : (Fcnt.parametersFromRawData [0, 0]).map List.length = .ok 2 ∧
    Fcnt.parametersFromRawData [0, 0] = .ok (List.replicate 2 Fcnt.ChannelParameters.default) ∧
    (Fcnt.parametersFromRawData [0, 1]).at? 1 = some ⟨.us11⟩ ∧
    (Fcnt.parametersFromRawData [2, 1]).at? 0 = some ⟨.us21⟩ := by decide +kernel

/-- `test_parameters_from_invalid_data_buffer_size`. -/
example : (Fcnt.parametersFromRawData (words 0)).isErr ∧
    (Fcnt.parametersFromRawData (words 1)).isErr ∧
    (Fcnt.parametersFromRawData (words 2)).isOk := by decide +kernel

/-- `process_input_byte_count` and `process_output_byte_count`. -/
example : fcnt.inputByteCount = 20 ∧ fcnt.outputByteCount = 12 := ⟨rfl, rfl⟩

/-- `test_process_input_data_with_invalid_buffer_size`. -/
example : (fcnt.processInputData []).isErr ∧ (fcnt.processInputData (words 2)).isErr ∧
    (fcnt.processInputData (words 9)).isErr ∧ (fcnt.processInputData (words 10)).isOk := by
  decide +kernel

/-- `test_process_input_data_with_missing_channel_parameters`. -/
example : (Module.processInputData (.fcnt ⟨[]⟩) (words 10)).isErr := by decide +kernel

/-- `test_process_input_data`. -/
example :
    let data := words 10
    let data' := ((data.set 1 1200).set 3 3).set 8 (setBit16 0 8)
    let inactive := fcntIn { count := 0, active := false, duration := some (dur 0 0) }
    let active := fcntIn { count := 3, active := true, duration := some 150000 }
    fcnt.processInputData data = .ok [inactive, inactive] ∧
    fcnt.processInputData data' = .ok [active, inactive] := by decide +kernel

/-- `test_process_input_data_min_duration`. -/
example : (fcnt.processInputData ((words 10).set 1 0x8)).at? 0 =
    some (fcntIn { count := 0, active := false, duration := some 1000 }) := by decide +kernel

/-- `test_process_input_data_max_duration`. -/
example :
    let data := ((((words 10).set 0 0x07FF).set 1 0xFFFE).set 4 0x07FF).set 5 0xFFFF
    (fcnt.processInputData data).at? 0 =
      some (fcntIn { count := 0, active := false, duration := some ((0x07FFFFFF - 1) * 125) }) ∧
    (fcnt.processInputData data).at? 1 =
      some (fcntIn { count := 0, active := false, duration := Option.none }) := by decide +kernel

/-- `test_process_output_data_with_invalid_buffer_size`. -/
example : (fcnt.processOutputData []).isErr ∧ (fcnt.processOutputData (words 5)).isErr ∧
    (fcnt.processOutputData (words 7)).isErr ∧ (fcnt.processOutputData (words 6)).isOk := by
  decide +kernel

/-- `test_process_output_data`. -/
example :
    let data := words 6
    let inactive := fcntOut { duration := dur 0 0, command := Option.none }
    let dur120 := fcntOut { duration := dur 0 120000, command := Option.none }
    let dur3 := fcntOut { duration := dur 0 3000, command := Option.none }
    let start := fcntOut { duration := dur 0 0, command := some .start }
    let stop := fcntOut { duration := dur 0 0, command := some .stop }
    fcnt.processOutputData data = .ok [inactive, inactive] ∧
    fcnt.processOutputData ((data.set 1 120).set 3 3) = .ok [dur120, dur3] ∧
    fcnt.processOutputData ((data.set 4 (setBit16 0 8)).set 5 (setBit16 0 9)) =
      .ok [start, stop] := by decide +kernel

/-- `test_process_output_values_with_invalid_channel_len`. -/
example : (fcnt.processOutputValues []).isErr ∧
    (fcnt.processOutputValues (List.replicate 1 (fcntOut FcntOut.default))).isErr ∧
    (fcnt.processOutputValues (List.replicate 3 (fcntOut FcntOut.default))).isErr ∧
    (fcnt.processOutputValues (List.replicate 2 (fcntOut FcntOut.default))).isOk := by
  decide +kernel

/-- `test_process_output_values_with_missing_channel_parameters`. -/
example : (Module.processOutputValues (.fcnt ⟨[]⟩)
    (List.replicate 2 (fcntOut FcntOut.default))).isErr := by decide +kernel

/-- `test_process_output_values_with_invalid_channel_values`. -/
example : (fcnt.processOutputValues [bit false, decimal32 (F32.lit 0)]).isErr := by decide +kernel

/-- `test_process_output_values`. -/
example :
    fcnt.processOutputValues [fcntOut FcntOut.default, fcntOut FcntOut.default] =
      .ok (words 6) ∧
    fcnt.processOutputValues [fcntOut ⟨dur 2 0, Option.none⟩, fcntOut ⟨dur 0 1000, Option.none⟩] =
      .ok [0x1e, 0x8480, 0, 1, 0, 0] ∧
    fcnt.processOutputValues
      [fcntOut ⟨dur 0 1000, some .start⟩, fcntOut ⟨dur 8 388607000, some .stop⟩] =
      .ok [0, 1, 0b01111111, 0xFFFF, 0x0100, 0x0200] := by decide +kernel

/-- `test_process_output_values_with_invalid_duration`. -/
example : (fcnt.processOutputValues
    [fcntOut ⟨dur 0 1000, Option.none⟩, fcntOut ⟨dur 8 388608000, Option.none⟩]).isErr := by
  decide +kernel

/-- `test_process_input_hertz`. The last digits of `4_294_967_295_000_000.0` are not
representable; the literal stands for the nearest number that is. -/
example :
    Fcnt.hertz { count := 100, active := true, duration := some (dur 1 0) } =
      some (F32.lit 100) ∧
    Fcnt.hertz { count := 5, active := true, duration := some (dur 0 200000) } =
      some (F32.lit 25000) ∧
    Fcnt.hertz { count := 0xFFFFFFFF, active := true, duration := some (dur 0 1000) } =
      some (F32.lit 4294967295000000) ∧
    Fcnt.hertz { count := 5, active := true, duration := Option.none } = Option.none := by
  decide +kernel

end Ur20.Conformance
