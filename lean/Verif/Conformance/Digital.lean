import Verif.Conformance.Basic

/-!
# Tests of `util.rs`, `lib.rs` and the digital modules
-/

namespace Ur20.Conformance

open ChannelValue

/-! ## `src/util.rs` -/

/-- `test_bit`. -/
example : testBit 0b10 0 = false ∧ testBit 0b10 1 = true := by decide +kernel

/-- `set_bit`. -/
example : setBit 0 0 = 0b01 ∧ setBit 0 1 = 0b10 := by decide +kernel

/-- `u16_to_u8`. -/
example : u16ToU8 [] = [] ∧ u16ToU8 [0xABCD] = [0xCD, 0xAB] ∧
    u16ToU8 [0xAB, 0xCD] = [0xAB, 0x00, 0xCD, 0x00] := by decide +kernel

/-- `u8_to_u16`. -/
example : u8ToU16 [] = [] ∧ u8ToU16 [0xAB] = [0xAB] ∧ u8ToU16 [0xA, 0xB] = [0x0B0A] ∧
    u8ToU16 [0xA, 0xB, 0xC] = [0x0B0A, 0xC] := by decide +kernel

/-- `shift_data`. -/
example : shiftData [0xABCD] = .ok [0x00AB] := by decide +kernel

/-- `test_u16_to_analog_ui_value`. -/
example :
    u16ToAnalogUiValue 0x3600 .mA0To20 .S7 = some (F32.lit 10) ∧
    u16ToAnalogUiValue 0x2000 .mA0To20 .S5 = some (F32.lit 10) ∧
    u16ToAnalogUiValue 0x3600 .mA4To20 .S7 = some (F32.lit 12) ∧
    u16ToAnalogUiValue 0x2000 .mA4To20 .S5 = some (F32.lit 12) ∧
    u16ToAnalogUiValue 0x3600 .V0To10 .S7 = some (F32.lit 5) ∧
    u16ToAnalogUiValue 0x2000 .V0To10 .S5 = some (F32.lit 5) ∧
    u16ToAnalogUiValue 0x3600 .VMinus10To10 .S7 = some (F32.lit 5) ∧
    u16ToAnalogUiValue 0x9400 .VMinus10To10 .S7 = some (F32.lit (-10)) ∧
    u16ToAnalogUiValue 0x2000 .VMinus10To10 .S5 = some (F32.lit 5) ∧
    u16ToAnalogUiValue 0x3600 .V2To10 .S7 = some (F32.lit 6) ∧
    u16ToAnalogUiValue 0x2000 .V2To10 .S5 = some (F32.lit 6) ∧
    u16ToAnalogUiValue 0x3600 .V1To5 .S7 = some (F32.lit 3) ∧
    u16ToAnalogUiValue 0x2000 .V1To5 .S5 = some (F32.lit 3) ∧
    u16ToAnalogUiValue 0x3600 .V0To5 .S7 = some (F32.lit 2.5) ∧
    u16ToAnalogUiValue 0x2000 .V0To5 .S5 = some (F32.lit 2.5) ∧
    u16ToAnalogUiValue 0x3600 .VMinus5To5 .S7 = some (F32.lit 2.5) ∧
    u16ToAnalogUiValue 0xCA00 .VMinus5To5 .S7 = some (F32.lit (-2.5)) ∧
    u16ToAnalogUiValue 0x2000 .VMinus5To5 .S5 = some (F32.lit 2.5) ∧
    u16ToAnalogUiValue 0xE000 .VMinus5To5 .S5 = some (F32.lit (-2.5)) ∧
    u16ToAnalogUiValue 0xE000 .Disabled .S5 = Option.none := by decide +kernel

/-- `test_analog_ui_value_to_u16`. -/
example : analogUiValueToU16 (F32.lit 10) .mA0To20 .S7 = 0x3600 ∧
    analogUiValueToU16 (F32.lit (-10)) .VMinus10To10 .S7 = 0x9400 := by decide +kernel

/-! ## `src/lib.rs` -/

/-- The upper case mapping of the characters that occur in the tests. -/
def up (c : Char) : List Char := [c.toUpper]

/-- `module_by_u32_id`. -/
example : ModuleType.tryFromU32 0x05052560 = .ok .UR20_4AO_UI_16_M_DIAG ∧
    ModuleType.tryFromU32 0x01234567 = .err .unknownModule := by decide +kernel

/-- `module_by_str_id`. -/
example : ModuleType.fromStr up "UR20_1COM_232_485_422" = .ok .UR20_1COM_232_485_422 ∧
    ModuleType.fromStr up "UR20-1COM-232-485-422" = .ok .UR20_1COM_232_485_422 ∧
    ModuleType.fromStr up "ur20-1com-232-485-422" = .ok .UR20_1COM_232_485_422 ∧
    ModuleType.fromStr up "not-valid" = .err .unknownModule := by decide +kernel

/-- `category_by_str_id`. -/
example : ModuleCategory.fromStr up "RTD" = .ok .RTD ∧
    ModuleCategory.fromStr up "rtd" = .ok .RTD ∧
    ModuleCategory.fromStr up "aO" = .ok .AO := by decide +kernel

/-! ## `src/ur20_16do_p.rs` -/

/-- `test_process_output_values_with_invalid_channel_len`. -/
example : (Module.do16.processOutputValues []).isErr ∧
    (Module.do16.processOutputValues (List.replicate 15 (bit true))).isErr ∧
    (Module.do16.processOutputValues (List.replicate 16 (bit true))).isOk := by decide +kernel

/-- `test_process_output_data`. -/
example : Module.do16.processOutputData [0xFFFF] = .ok (List.replicate 16 (bit true)) ∧
    (Module.do16.processOutputData [0b0010000100100101]).at? 0 = some (bit true) ∧
    (Module.do16.processOutputData [0b0010000100100101]).at? 1 = some (bit false) ∧
    (Module.do16.processOutputData [0b0010000100100101]).at? 5 = some (bit true) ∧
    (Module.do16.processOutputData [0b0010000100100101]).at? 8 = some (bit true) ∧
    (Module.do16.processOutputData [0b0010000100100101]).at? 13 = some (bit true) := by
  decide +kernel

/-- `test_process_output_data_with_invalid_buffer_size`. -/
example : (Module.do16.processOutputData (words 2)).isErr := by decide +kernel

/-- `test_process_output_values_with_invalid_channel_values`. -/
example : (Module.do16.processOutputValues (List.replicate 16 (decimal32 (F32.lit 0)))).isErr := by
  decide +kernel

/-- `test_process_output_values`. -/
example :
    let vals := ((((List.replicate 16 (bit false)).set 0 (bit true)).set 2 (bit true)).set 3
      (bit true)).set 13 (bit true)
    Module.do16.processOutputValues vals = .ok [0b0010000000001101] ∧
    Module.do16.processOutputValues ((vals.set 7 (bit true)).set 8 (bit true)) =
      .ok [0b0010000110001101] := by decide +kernel

/-- `module_type`. -/
example : Module.do16.moduleType = .UR20_16DO_P := rfl

/-- `create_module_from_modbus_parameter_data`. -/
example : (Do16.fromModbusParameterData []).isOk ∧ (Do16.fromModbusParameterData [0]).isErr := by
  decide +kernel

/-! ## `src/ur20_pf_o_1di_sil.rs` -/

/-- `process_input_byte_count` and `process_output_byte_count`. -/
example : Module.sil.inputByteCount = 4 ∧ Module.sil.outputByteCount = 0 := ⟨rfl, rfl⟩

/-- `test_process_input_data_with_invalid_buffer_size`. -/
example : (Module.sil.processInputData (words 0)).isErr ∧
    (Module.sil.processInputData (words 1)).isErr ∧
    (Module.sil.processInputData (words 2)).isOk ∧
    (Module.sil.processInputData (words 3)).isErr ∧
    (Module.sil.processInputData (words 4)).isErr := by decide +kernel

/-- `test_process_input_data`. -/
example :
    Module.sil.processInputData [0b0000010100111101, 0] =
      .ok [silPFIn ⟨true, true, true, true, true, true, true⟩] ∧
    Module.sil.processInputData [0b0000000100011000, 0] = .ok [silPFIn
      { safetyInput := false, autostart := false, manualStart := true,
        safetyInputChannel1 := true, safetyInputChannel2 := false,
        volt24SafeOutput := true, volt24Dc := false }] ∧
    Module.sil.processInputData [0, 0] =
      .ok [silPFIn ⟨false, false, false, false, false, false, false⟩] := by decide +kernel

/-- `test_process_output_data_with_invalid_buffer_size`. -/
example : (Module.sil.processOutputData []).isOk ∧ (Module.sil.processOutputData (words 1)).isErr ∧
    (Module.sil.processOutputData (words 2)).isErr ∧
    (Module.sil.processOutputData (words 3)).isErr := by decide +kernel

/-! ## `src/ur20_4ro_co_255.rs` -/

/-- `Mod::default()`. -/
def ro : Module := .ro Ro.Mod.default

/-- `test_process_output_values_with_invalid_channel_len`. -/
example : (ro.processOutputValues []).isErr ∧
    (ro.processOutputValues [bit true, bit false, bit true]).isErr ∧
    (ro.processOutputValues [bit true, bit false, bit true, bit true]).isOk := by decide +kernel

/-- `test_process_output_data`. -/
example : ro.processOutputData [0x0F] = .ok [bit true, bit true, bit true, bit true] ∧
    ro.processOutputData [0b0000101] = .ok [bit true, bit false, bit true, bit false] := by
  decide +kernel

/-- `test_process_output_data_with_invalid_buffer_size`. -/
example : (ro.processOutputData (words 2)).isErr := by decide +kernel

/-- `test_process_output_values_with_invalid_channel_values`. -/
example : (ro.processOutputValues [bit false, bit true, bit false, decimal32 (F32.lit 0)]).isErr := by
  decide +kernel

/-- `test_process_output_values`. -/
example : ro.processOutputValues [bit true, bit false, bit true, bit true] = .ok [0b1101] := by
  decide +kernel

/-- `module_type`. -/
example : ro.moduleType = .UR20_4RO_CO_255 := rfl

/-- `test_channel_parameters_from_raw_data`. -/
example : (Ro.parametersFromRawData [0, 1, 0, 1]).map List.length = .ok 4 ∧
    (Ro.parametersFromRawData [0, 1, 0, 1]).at? 0 = some Do.ChannelParameters.default ∧
    (Ro.parametersFromRawData [0, 1, 0, 1]).at? 1 = some ⟨true⟩ ∧
    (Ro.parametersFromRawData [0, 1, 0, 1]).at? 2 = some ⟨false⟩ ∧
    (Ro.parametersFromRawData [0, 1, 0, 1]).at? 3 = some ⟨true⟩ := by decide +kernel

/-- `test_parameters_from_invalid_raw_data`. -/
example : (Ro.parametersFromRawData [2, 0, 0, 0]).isErr := by decide +kernel

/-- `test_parameters_from_invalid_data_buffer_size`. -/
example : (Ro.parametersFromRawData (words 0)).isErr ∧ (Ro.parametersFromRawData (words 3)).isErr ∧
    (Ro.parametersFromRawData (words 4)).isOk := by decide +kernel

/-- `create_module_from_modbus_parameter_data`. -/
example : Ro.fromModbusParameterData [1, 0, 1, 0] =
    .ok ⟨[⟨true⟩, ⟨false⟩, ⟨true⟩, ⟨false⟩]⟩ := by decide +kernel

/-! ## `src/ur20_di_generic.rs` -/

/-- `Mod::<UR20_4DI_P>::default()`. -/
def di4 : Module := .di (Di.Mod.default .UR20_4DI_P)

/-- `Mod::<UR20_8DI_P_2W>::default()`. -/
def di8 : Module := .di (Di.Mod.default .UR20_8DI_P_2W)

/-- `test_process_input_data`. -/
example : (di4.processInputData []).isErr ∧
    di4.processInputData [0b0100] = .ok [bit false, bit false, bit true, bit false] := by
  decide +kernel

/-- `test_process_input_data_8`. -/
example : (di8.processInputData []).isErr ∧
    di8.processInputData [0b11010100] = .ok [bit false, bit false, bit true, bit false, bit true,
      bit false, bit true, bit true] := by decide +kernel

/-- `test_process_output_data`. -/
example : (di4.processOutputData (words 4)).isErr ∧
    di4.processOutputData [] = .ok (List.replicate 4 .none) := by decide +kernel

/-- `test_process_output_values`. -/
example : (di4.processOutputValues [bit true]).isErr ∧ di4.processOutputValues [] = .ok [] ∧
    di4.processOutputValues (List.replicate 4 .none) = .ok [] := by decide +kernel

/-- `test_channel_parameters_from_raw_data`. -/
example : (Di.parametersFromRawData .UR20_4DI_P [2, 3, 4, 0]).map List.length = .ok 4 ∧
    Di.parametersFromRawData .UR20_4DI_P [2, 3, 4, 0] =
      .ok [Di.ChannelParameters.default, ⟨.ms10⟩, ⟨.ms20⟩, ⟨.no⟩] := by decide +kernel

/-- `test_parameters_from_invalid_raw_data`. -/
example : (Di.parametersFromRawData .UR20_4DI_P [6, 0, 0, 0]).isErr := by decide +kernel

/-- `test_parameters_from_invalid_data_buffer_size`. -/
example : (Di.parametersFromRawData .UR20_4DI_P (words 0)).isErr ∧
    (Di.parametersFromRawData .UR20_4DI_P (words 3)).isErr ∧
    (Di.parametersFromRawData .UR20_4DI_P (words 4)).isOk := by decide +kernel

/-- `create_module_from_modbus_parameter_data`. -/
example :
    ((Di.fromModbusParameterData .UR20_4DI_P [0, 3, 4, 5]).map (·.chParams)).at? 0 = some ⟨.no⟩ ∧
    ((Di.fromModbusParameterData .UR20_4DI_P [0, 3, 4, 5]).map (·.chParams)).at? 3 =
      some ⟨.ms40⟩ := by decide +kernel

/-- `create_module_from_modbus_parameter_data_8`. -/
example : (Di.fromModbusParameterData .UR20_8DI_P_2W [0, 1, 2, 3, 4, 5, 2, 2]).map
    (fun m => m.chParams.map (·.inputDelay)) =
      .ok [.no, .us300, .ms3, .ms10, .ms20, .ms40, .ms3, Di.ChannelParameters.default.inputDelay] := by
  decide +kernel

/-! ## `src/ur20_do_generic.rs` -/

/-- `Mod::<UR20_4DO_P>::default()`. -/
def do4 : Module := .dout (Do.Mod.default .UR20_4DO_P)

/-- `test_process_output_values_with_invalid_channel_len`. -/
example : (do4.processOutputValues []).isErr ∧
    (do4.processOutputValues [bit true, bit false, bit true]).isErr ∧
    (do4.processOutputValues [bit true, bit false, bit true, bit true]).isOk := by decide +kernel

/-- `test_process_output_data`. -/
example : do4.processOutputData [0x0F] = .ok [bit true, bit true, bit true, bit true] ∧
    do4.processOutputData [0b0000101] = .ok [bit true, bit false, bit true, bit false] := by
  decide +kernel

/-- `test_process_output_data_with_invalid_buffer_size`. -/
example : (do4.processOutputData (words 2)).isErr := by decide +kernel

/-- `test_process_output_values_with_invalid_channel_values`. -/
example :
    (do4.processOutputValues [bit false, bit true, bit false, decimal32 (F32.lit 0)]).isErr := by
  decide +kernel

/-- `test_process_output_values`. -/
example : do4.processOutputValues [bit true, bit false, bit true, bit true] = .ok [0b1101] := by
  decide +kernel

/-- `module_type`. -/
example : do4.moduleType = .UR20_4DO_P := rfl

/-- `test_channel_parameters_from_raw_data`. -/
example : (Do.parametersFromRawData .UR20_4DO_P [0, 1, 0, 1]).map List.length = .ok 4 ∧
    Do.parametersFromRawData .UR20_4DO_P [0, 1, 0, 1] =
      .ok [Do.ChannelParameters.default, ⟨true⟩, ⟨false⟩, ⟨true⟩] := by decide +kernel

/-- `test_parameters_from_invalid_raw_data`. -/
example : (Do.parametersFromRawData .UR20_4DO_P [2, 0, 0, 0]).isErr := by decide +kernel

/-- `test_parameters_from_invalid_data_buffer_size`. -/
example : (Do.parametersFromRawData .UR20_4DO_P (words 0)).isErr ∧
    (Do.parametersFromRawData .UR20_4DO_P (words 3)).isErr ∧
    (Do.parametersFromRawData .UR20_4DO_P (words 4)).isOk := by decide +kernel

/-- `create_module_from_modbus_parameter_data`. -/
example : (Do.fromModbusParameterData .UR20_4DO_P [1, 0, 1, 0]).map (·.chParams) =
    .ok [⟨true⟩, ⟨false⟩, ⟨true⟩, ⟨false⟩] := by decide +kernel

end Ur20.Conformance
