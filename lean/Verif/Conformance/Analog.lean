import Verif.Conformance.Basic

/-!
# Tests of the analog modules
-/

namespace Ur20.Conformance

open ChannelValue

/-- The literal `q` as `ChannelValue::Decimal32`. -/
abbrev dec (q : Rat) : ChannelValue := decimal32 (F32.lit q)

/-- `(v - q).abs() < eps` for a finite `v`. -/
def near (v : ChannelValue) (q eps : Rat) : Bool :=
  match v with
  | .decimal32 (.fin x) => decide (ratAbs (x - q) < eps)
  | _ => false

/-! ## `src/ur20_4ao_ui_16.rs` -/

/-- `Mod::default()`, with the output ranges `r`. -/
def aoMod (r : List AnalogUIRange) : Module :=
  .ao ⟨r.map fun x => { Ao.ChannelParameters.default with outputRange := x }⟩

/-- `Mod::default()` has four disabled channels. -/
example : .ao Ao.Mod.default = aoMod (List.replicate 4 .Disabled) := by decide +kernel

/-- `test_process_input_data`. -/
example : (Module.processInputData (.ao Ao.Mod.default) (words 4)).isErr ∧
    Module.processInputData (.ao Ao.Mod.default) [] = .ok [.none, .none, .none, .none] := by
  decide +kernel

/-- `test_process_output_data`. -/
example :
    Module.processOutputData (.ao Ao.Mod.default) [123, 456, 789, 0] =
      .ok [disabled, disabled, disabled, disabled] ∧
    (aoMod (List.replicate 4 .mA0To20)).processOutputData [0x0, 0x6C00, 0x3600, 0x0] =
      .ok [dec 0, dec 20, dec 10, dec 0] := by decide +kernel

/-- `test_process_output_data_with_invalid_buffer_size`. -/
example : (Module.processOutputData (.ao Ao.Mod.default) []).isErr ∧
    (Module.processOutputData (.ao Ao.Mod.default) (words 3)).isErr ∧
    (Module.processOutputData (.ao Ao.Mod.default) (words 5)).isErr ∧
    (Module.processOutputData (.ao Ao.Mod.default) (words 4)).isOk := by decide +kernel

/-- `test_process_output_values_with_invalid_channel_len`. -/
example : (Module.processOutputValues (.ao Ao.Mod.default) []).isErr ∧
    (Module.processOutputValues (.ao Ao.Mod.default) [dec 0, dec 0, dec 0]).isErr ∧
    (Module.processOutputValues (.ao Ao.Mod.default)
      [dec 0, dec 0, dec 0, disabled]).isOk := by decide +kernel

/-- `test_process_output_values_with_invalid_channel_values`. -/
example : (Module.processOutputValues (.ao Ao.Mod.default)
    [bit false, dec 0, dec 0, dec 0]).isErr := by decide +kernel

/-- `test_process_output_values_with_missing_channel_parameters`. -/
example : (Module.processOutputValues (.ao ⟨[]⟩) [dec 0, dec 0, dec 0, dec 0]).isErr := by
  decide +kernel

/-- `test_process_output_values`. -/
example :
    Module.processOutputValues (.ao Ao.Mod.default) [dec 0, dec 99.9, disabled, dec 3.3] =
      .ok [0, 0, 0, 0] ∧
    (aoMod (List.replicate 4 .mA0To20)).processOutputValues
      [dec 23.518, dec 20, dec 10, dec 0] = .ok [0x7EFF, 0x6C00, 0x3600, 0x0] ∧
    (aoMod [.mA0To20, .mA4To20, .V0To10, .VMinus10To10]).processOutputValues
      [dec 10, dec 12, dec 10, dec (-10)] = .ok [0x3600, 0x3600, 0x6C00, 0x9400] ∧
    (aoMod [.V0To5, .VMinus5To5, .V1To5, .V2To10]).processOutputValues
      [dec 5, dec (-5), dec 1, dec 2] = .ok [0x6C00, 0x9400, 0x0, 0x0] := by decide +kernel

/-- `test_channel_parameters_from_raw_data`. -/
example :
    let p := Ao.parametersFromRawData
      [1, 8, 0, 1, 0, 0, 0, 2, 0, 1, 5, 0xCA00]
    p.map List.length = .ok 4 ∧ p.at? 0 = some Ao.ChannelParameters.default ∧
    (p.at? 1).map (·.dataFormat) = some .S7 ∧
    (p.at? 2).map (·.outputRange) = some .V0To10 ∧
    (p.at? 3).map (·.substituteValue) = some (F32.lit (-2.5)) := by decide +kernel

/-- `test_parameters_from_invalid_raw_data`. -/
example : (Ao.parametersFromRawData ((words 12).set 0 2)).isErr ∧
    (Ao.parametersFromRawData ((words 12).set 1 9)).isErr := by decide +kernel

/-- `test_parameters_from_invalid_data_buffer_size`. -/
example : (Ao.parametersFromRawData (words 0)).isErr ∧
    (Ao.parametersFromRawData (words 11)).isErr ∧
    (Ao.parametersFromRawData (words 12)).isOk := by decide +kernel

/-- `create_module_from_modbus_parameter_data`. -/
example :
    let p := (Ao.fromModbusParameterData [1, 0, 0, 0, 8, 0, 0, 0, 0, 0, 0, 0]).map
      (·.chParams)
    (p.at? 0).map (·.dataFormat) = some .S7 ∧ (p.at? 1).map (·.outputRange) = some .Disabled := by
  decide +kernel

/-! ## `src/ur20_4ao_ui_16_diag.rs` -/

/-- `Mod::default()`, with the output ranges `r`. -/
def aoDiagMod (r : List AnalogUIRange) : Module :=
  .aoDiag ⟨r.map fun x => { AoDiag.ChannelParameters.default with outputRange := x }⟩

/-- `Mod::default()` has four disabled channels. -/
example : .aoDiag AoDiag.Mod.default = aoDiagMod (List.replicate 4 .Disabled) := by decide +kernel

/-- `test_process_input_data`. -/
example : (Module.processInputData (.aoDiag AoDiag.Mod.default) (words 4)).isErr ∧
    Module.processInputData (.aoDiag AoDiag.Mod.default) [] = .ok [.none, .none, .none, .none] := by
  decide +kernel

/-- `test_process_output_data`. -/
example :
    Module.processOutputData (.aoDiag AoDiag.Mod.default) [123, 456, 789, 0] =
      .ok [disabled, disabled, disabled, disabled] ∧
    (aoDiagMod (List.replicate 4 .mA0To20)).processOutputData [0x0, 0x6C00, 0x3600, 0x0] =
      .ok [dec 0, dec 20, dec 10, dec 0] := by decide +kernel

/-- `test_process_output_data_with_invalid_buffer_size`. -/
example : (Module.processOutputData (.aoDiag AoDiag.Mod.default) []).isErr ∧
    (Module.processOutputData (.aoDiag AoDiag.Mod.default) (words 3)).isErr ∧
    (Module.processOutputData (.aoDiag AoDiag.Mod.default) (words 5)).isErr ∧
    (Module.processOutputData (.aoDiag AoDiag.Mod.default) (words 4)).isOk := by decide +kernel

/-- `test_process_output_values_with_invalid_channel_len`. -/
example : (Module.processOutputValues (.aoDiag AoDiag.Mod.default) []).isErr ∧
    (Module.processOutputValues (.aoDiag AoDiag.Mod.default) [dec 0, dec 0, dec 0]).isErr ∧
    (Module.processOutputValues (.aoDiag AoDiag.Mod.default)
      [dec 0, dec 0, disabled, dec 0]).isOk := by decide +kernel

/-- `test_process_output_values_with_invalid_channel_values`. -/
example : (Module.processOutputValues (.aoDiag AoDiag.Mod.default)
    [bit false, dec 0, dec 0, dec 0]).isErr := by decide +kernel

/-- `test_process_output_values_with_missing_channel_parameters`. -/
example : (Module.processOutputValues (.aoDiag ⟨[]⟩) [dec 0, dec 0, dec 0, dec 0]).isErr := by
  decide +kernel

/-- `test_process_output_values`. -/
example :
    Module.processOutputValues (.aoDiag AoDiag.Mod.default) [dec 0, dec 99.9, disabled, dec 3.3] =
      .ok [0, 0, 0, 0] ∧
    (aoDiagMod (List.replicate 4 .mA0To20)).processOutputValues
      [dec 23.518, dec 20, dec 10, dec 0] = .ok [0x7EFF, 0x6C00, 0x3600, 0x0] ∧
    (aoDiagMod [.mA0To20, .mA4To20, .V0To10, .VMinus10To10]).processOutputValues
      [dec 10, dec 12, dec 10, dec (-10)] = .ok [0x3600, 0x3600, 0x6C00, 0x9400] ∧
    (aoDiagMod [.V0To5, .VMinus5To5, .V1To5, .V2To10]).processOutputValues
      [dec 5, dec (-5), dec 1, dec 2] = .ok [0x6C00, 0x9400, 0x0, 0x0] := by decide +kernel

/-- `test_channel_parameters_from_raw_data`. -/
example :
    let p := AoDiag.parametersFromRawData
      [1, 8, 0, 0, 1, 0, 0, 1, 0, 2, 0, 0, 1, 5, 0xCA00, 0]
    p.map List.length = .ok 4 ∧ p.at? 0 = some AoDiag.ChannelParameters.default ∧
    (p.at? 1).map (·.dataFormat) = some .S7 ∧
    (p.at? 1).map (·.channelDiagnostics) = some true ∧ (p.at? 2).map (·.dataFormat) = some .S5 ∧
    (p.at? 2).map (·.outputRange) = some .V0To10 ∧
    (p.at? 3).map (·.substituteValue) = some (F32.lit (-2.5)) := by decide +kernel

/-- `test_parameters_from_invalid_raw_data`. -/
example : (AoDiag.parametersFromRawData ((words 16).set 0 2)).isErr ∧
    (AoDiag.parametersFromRawData ((words 16).set 1 9)).isErr ∧
    (AoDiag.parametersFromRawData ((words 16).set 3 2)).isErr := by decide +kernel

/-- `test_parameters_from_invalid_data_buffer_size`. -/
example : (AoDiag.parametersFromRawData (words 0)).isErr ∧
    (AoDiag.parametersFromRawData (words 15)).isErr ∧
    (AoDiag.parametersFromRawData (words 16)).isOk := by decide +kernel

/-- `create_module_from_modbus_parameter_data`. -/
example :
    let p := (AoDiag.fromModbusParameterData [1, 0, 0, 0, 0, 8, 0, 0, 0, 0, 0, 0, 0, 0, 0, 0]).map
      (·.chParams)
    (p.at? 0).map (·.dataFormat) = some .S7 ∧ (p.at? 1).map (·.outputRange) = some .Disabled := by
  decide +kernel

/-! ## `src/ur20_ai_ui_generic.rs` -/

/-- `Mod::default()`, with these measurement ranges and data formats. -/
def aiMod (r : List (AnalogUIRange × DataFormat)) : Module :=
  .ai { Ai.Mod.default .UR20_4AI_UI_12 with chParams :=
    (r.map fun x => { Ai.ChannelParameters.default with
      measurementRange := x.1, dataFormat := x.2 }) }

/-- `test_process_input_data_with_empty_buffer`. -/
example : (Module.processInputData (.ai (Ai.Mod.default .UR20_4AI_UI_12)) []).isErr := by decide +kernel

/-- `test_process_input_data_with_missing_channel_parameters`. -/
example : (Module.processInputData (.ai ⟨.UR20_4AI_UI_12, .Disabled, []⟩) (words 4)).isErr := by
  decide +kernel

/-- `test_process_input_data`. -/
example :
    (Ai.Mod.default .UR20_4AI_UI_12).chParams.map (·.measurementRange) = List.replicate 4 .Disabled ∧
    Module.processInputData (.ai (Ai.Mod.default .UR20_4AI_UI_12)) [5, 0, 7, 8] =
      .ok (List.replicate 4 disabled) ∧
    (aiMod [(.mA0To20, .S7), (.VMinus5To5, .S7), (.V2To10, .S5), (.V0To5, .S7)]).processInputData
      [0x6C00, 0x3600, 0x4000, 0x6C00] = .ok [dec 20, dec 2.5, dec 10, dec 5] := by decide +kernel

/-- `test_process_input_data_with_underloading`. -/
example :
    let i := (aiMod [(.mA4To20, .S7), (.mA4To20, .S5), (.Disabled, .S7),
      (.Disabled, .S7)]).processInputData [0xED00, 0x0F333, 0, 0]
    (i.at? 0).any (near · 1.19 0.01) ∧ (i.at? 1).any (near · 0.8 0.01) := by decide +kernel

/-- `test_process_output_data`. -/
example : (Module.processOutputData (.ai (Ai.Mod.default .UR20_4AI_UI_12)) (words 4)).isErr ∧
    Module.processOutputData (.ai (Ai.Mod.default .UR20_4AI_UI_12)) [] =
      .ok (List.replicate 4 .none) := by decide +kernel

/-- `test_process_output_values`. -/
example : (Module.processOutputValues (.ai (Ai.Mod.default .UR20_4AI_UI_12)) [dec 0]).isErr ∧
    Module.processOutputValues (.ai (Ai.Mod.default .UR20_4AI_UI_12)) [] = .ok [] ∧
    Module.processOutputValues (.ai (Ai.Mod.default .UR20_4AI_UI_12)) (List.replicate 4 .none) =
      .ok [] := by decide +kernel

/-- `test_module_parameters_from_raw_data`. -/
example : (Ai.parametersFromRawData .UR20_4AI_UI_12 (words 9)).map (·.1) = .ok .Disabled ∧
    (Ai.parametersFromRawData .UR20_4AI_UI_12 ((words 9).set 0 3)).map (·.1) = .ok .Average16 := by
  decide +kernel

/-- `test_channel_parameters_from_raw_data`. -/
example :
    let p := (Ai.parametersFromRawData .UR20_4AI_UI_12
      [0, 1, 8, 0, 5, 0, 0, 0, 0]).map (·.2)
    p.map List.length = .ok 4 ∧ p.at? 0 = some Ai.ChannelParameters.default ∧
    (p.at? 1).map (·.dataFormat) = some .S5 ∧ (p.at? 1).map (·.measurementRange) = some .VMinus5To5 ∧
    (p.at? 3).map (·.measurementRange) = some .mA0To20 := by decide +kernel

/-- `test_parameters_from_invalid_raw_data`. -/
example : (Ai.parametersFromRawData .UR20_4AI_UI_12 ((words 9).set 0 4)).isErr ∧
    (Ai.parametersFromRawData .UR20_4AI_UI_12 ((words 9).set 1 2)).isErr ∧
    (Ai.parametersFromRawData .UR20_4AI_UI_12 ((words 9).set 2 9)).isErr := by
  decide +kernel

/-- `test_parameters_from_invalid_data_buffer_size`. -/
example : (Ai.parametersFromRawData .UR20_4AI_UI_12 (words 0)).isErr ∧
    (Ai.parametersFromRawData .UR20_4AI_UI_12 (words 8)).isErr ∧
    (Ai.parametersFromRawData .UR20_4AI_UI_12 (words 9)).isOk := by decide +kernel

/-- `create_module_from_modbus_parameter_data`. -/
example :
    let p := (Ai.fromModbusParameterData .UR20_4AI_UI_12
      [0, 0, 1, 1, 8, 0, 0, 0, 0]).map (·.chParams)
    (p.at? 0).map (·.measurementRange) = some .mA4To20 ∧
    (p.at? 1).map (·.measurementRange) = some .Disabled := by decide +kernel

/-! ## `src/ur20_4ai_ui_16_diag.rs` -/

/-- `Mod::default()`, with these measurement ranges and data formats. -/
def aiDiagMod (r : List (AnalogUIRange × DataFormat)) : Module :=
  .aiDiag { AiDiag.Mod.default with chParams :=
    (r.map fun x => { AiDiag.ChannelParameters.default with
      measurementRange := x.1, dataFormat := x.2 }) }

/-- `test_process_input_data_with_empty_buffer`. -/
example : (Module.processInputData (.aiDiag AiDiag.Mod.default) []).isErr := by decide +kernel

/-- `test_process_input_data_with_missing_channel_parameters`. -/
example : (Module.processInputData (.aiDiag ⟨.Disabled, []⟩) (words 4)).isErr := by
  decide +kernel

/-- `test_process_input_data`. -/
example :
    AiDiag.Mod.default.chParams.map (·.measurementRange) = List.replicate 4 .Disabled ∧
    Module.processInputData (.aiDiag AiDiag.Mod.default) [5, 0, 7, 8] =
      .ok (List.replicate 4 disabled) ∧
    (aiDiagMod [(.mA0To20, .S7), (.VMinus5To5, .S7), (.V2To10, .S5), (.V0To5, .S7)]).processInputData
      [0x6C00, 0x3600, 0x4000, 0x6C00] = .ok [dec 20, dec 2.5, dec 10, dec 5] := by decide +kernel

/-- `test_process_input_data_with_underloading`. -/
example :
    let i := (aiDiagMod [(.mA4To20, .S7), (.mA4To20, .S5), (.Disabled, .S7),
      (.Disabled, .S7)]).processInputData [0xED00, 0x0F333, 0, 0]
    (i.at? 0).any (near · 1.19 0.01) ∧ (i.at? 1).any (near · 0.8 0.01) := by decide +kernel

/-- `test_process_output_data`. -/
example : (Module.processOutputData (.aiDiag AiDiag.Mod.default) (words 4)).isErr ∧
    Module.processOutputData (.aiDiag AiDiag.Mod.default) [] =
      .ok (List.replicate 4 .none) := by decide +kernel

/-- `test_process_output_values`. -/
example : (Module.processOutputValues (.aiDiag AiDiag.Mod.default) [dec 0]).isErr ∧
    Module.processOutputValues (.aiDiag AiDiag.Mod.default) [] = .ok [] ∧
    Module.processOutputValues (.aiDiag AiDiag.Mod.default) (List.replicate 4 .none) =
      .ok [] := by decide +kernel

/-- `test_module_parameters_from_raw_data`. -/
example : (AiDiag.parametersFromRawData (words 21)).map (·.1) = .ok .Disabled ∧
    (AiDiag.parametersFromRawData ((words 21).set 0 3)).map (·.1) = .ok .Average16 := by
  decide +kernel

/-- `test_channel_parameters_from_raw_data`. -/
example :
    let p := (AiDiag.parametersFromRawData
      [0, 0, 0, 0, 1, 8, 1, 0, 0, 0, 5, 0, 1, 0, 0, 0, 0, 0, 1, 0, 0]).map (·.2)
    p.map List.length = .ok 4 ∧ p.at? 0 = some AiDiag.ChannelParameters.default ∧
    (p.at? 1).map (·.dataFormat) = some .S5 ∧ (p.at? 1).map (·.measurementRange) = some .VMinus5To5 ∧
    (p.at? 1).map (·.channelDiagnostics) = some true ∧
    (p.at? 1).map (·.diagShortCircuit) = some false ∧
    (p.at? 1).map (·.diagLineBreak) = some false ∧
    (p.at? 2).map (·.diagShortCircuit) = some true ∧ (p.at? 3).map (·.diagLineBreak) = some true ∧
    (p.at? 3).map (·.measurementRange) = some .mA0To20 := by decide +kernel

/-- `test_parameters_from_invalid_raw_data`. -/
example : (AiDiag.parametersFromRawData ((words 21).set 0 4)).isErr ∧
    (AiDiag.parametersFromRawData ((words 21).set 1 2)).isErr ∧
    (AiDiag.parametersFromRawData ((words 21).set 2 2)).isErr ∧
    (AiDiag.parametersFromRawData ((words 21).set 3 2)).isErr ∧
    (AiDiag.parametersFromRawData ((words 21).set 4 2)).isErr ∧
    (AiDiag.parametersFromRawData ((words 21).set 5 9)).isErr := by
  decide +kernel

/-- `test_parameters_from_invalid_data_buffer_size`. -/
example : (AiDiag.parametersFromRawData (words 0)).isErr ∧
    (AiDiag.parametersFromRawData (words 20)).isErr ∧
    (AiDiag.parametersFromRawData (words 21)).isOk := by decide +kernel

/-- `create_module_from_modbus_parameter_data`. -/
example :
    let p := (AiDiag.fromModbusParameterData
      [0, 0, 0, 0, 0, 1, 0, 0, 0, 1, 8, 1, 0, 0, 0, 0, 0, 0, 0, 0, 0]).map (·.chParams)
    (p.at? 0).map (·.measurementRange) = some .mA4To20 ∧
    (p.at? 1).map (·.measurementRange) = some .Disabled ∧
    (p.at? 2).map (·.channelDiagnostics) = some true := by decide +kernel

/-! ## `src/ur20_8ai_i_16_diag_hd.rs` -/

/-- `Mod::default()`, with these measurement ranges and data formats. -/
def aiIMod (r : List (AnalogIRange × DataFormat)) : Module :=
  .aiI { AiI.Mod.default with chParams :=
    (r.map fun x => { AiI.ChannelParameters.default with
      measurementRange := x.1, dataFormat := x.2 }) }

/-- `test_process_input_data_with_empty_buffer`. -/
example : (Module.processInputData (.aiI AiI.Mod.default) []).isErr := by decide +kernel

/-- `test_process_input_data_with_missing_channel_parameters`. -/
example : (Module.processInputData (.aiI ⟨.Disabled, []⟩) (words 8)).isErr := by decide +kernel

/-- `test_process_input_data`. -/
example :
    Module.processInputData (.aiI AiI.Mod.default) [5, 0, 7, 8, 0, 0, 0, 0] =
      .ok (List.replicate 8 disabled) ∧
    (aiIMod [(.mA0To20, .S7), (.mA0To20, .S7), (.mA0To20, .S5), (.mA4To20, .S7), (.mA4To20, .S7),
      (.mA4To20, .S5), (.Disabled, .S7), (.Disabled, .S7)]).processInputData
      [0x6C00, 0x3600, 0x4000, 0x6C00, 0x3600, 0x4000, 0, 0] =
      .ok [dec 20, dec 10, dec 20, dec 20, dec 12, dec 20, disabled, disabled] := by decide +kernel

/-- `test_process_input_data_with_underloading`. -/
example :
    let i := (aiIMod ([(.mA4To20, .S7), (.mA4To20, .S5)] ++
      List.replicate 6 (.Disabled, .S7))).processInputData [0xED00, 0x0F333, 0, 0, 0, 0, 0, 0]
    (i.at? 0).any (near · 1.19 0.01) ∧ (i.at? 1).any (near · 0.8 0.01) := by decide +kernel

/-- `test_process_output_data`. -/
example : (Module.processOutputData (.aiI AiI.Mod.default) (words 8)).isErr ∧
    Module.processOutputData (.aiI AiI.Mod.default) [] = .ok (List.replicate 8 .none) := by
  decide +kernel

/-- `test_process_output_values`. -/
example : (Module.processOutputValues (.aiI AiI.Mod.default) [dec 0]).isErr ∧
    Module.processOutputValues (.aiI AiI.Mod.default) [] = .ok [] ∧
    Module.processOutputValues (.aiI AiI.Mod.default) (List.replicate 8 .none) = .ok [] := by
  decide +kernel

/-- `test_module_parameters_from_raw_data`. -/
example : (AiI.parametersFromRawData (words 33)).map (·.1) = .ok .Disabled ∧
    (AiI.parametersFromRawData ((words 33).set 0 1)).map (·.1) = .ok .Hz50 ∧
    (AiI.parametersFromRawData ((words 33).set 0 2)).map (·.1) = .ok .Hz60 ∧
    (AiI.parametersFromRawData ((words 33).set 0 3)).map (·.1) = .ok .Average16 := by
  decide +kernel

/-- `test_channel_parameters_from_raw_data`. -/
example :
    let p := (AiI.parametersFromRawData
      [0, 0, 0, 1, 2, 1, 0, 0, 2, 0, 1, 0, 2, 0, 0, 1, 2, 0, 0, 0, 1, 1, 1, 1, 0, 0, 0, 0, 0,
        0, 0, 0, 0]).map (·.2)
    p.map List.length = .ok 8 ∧ p.at? 0 = some AiI.ChannelParameters.default ∧
    (p.at? 1).map (·.channelDiagnostics) = some true ∧
    (p.at? 1).map (·.diagShortCircuit) = some false ∧
    (p.at? 1).map (·.dataFormat) = some .S5 ∧ (p.at? 1).map (·.measurementRange) = some .Disabled ∧
    (p.at? 2).map (·.diagShortCircuit) = some true ∧ (p.at? 3).map (·.dataFormat) = some .S7 ∧
    (p.at? 4).map (·.measurementRange) = some .mA4To20 := by decide +kernel

/-- `test_parameters_from_invalid_raw_data`. -/
example : (AiI.parametersFromRawData ((words 33).set 1 2)).isErr ∧
    (AiI.parametersFromRawData ((words 33).set 2 2)).isErr ∧
    (AiI.parametersFromRawData ((words 33).set 3 2)).isErr ∧
    (AiI.parametersFromRawData ((words 33).set 4 3)).isErr := by decide +kernel

/-- `test_parameters_from_invalid_data_buffer_size`. -/
example : (AiI.parametersFromRawData (words 0)).isErr ∧
    (AiI.parametersFromRawData (words 32)).isErr ∧
    (AiI.parametersFromRawData (words 33)).isOk := by decide +kernel

/-- `create_module_from_modbus_parameter_data`. -/
example :
    let p := (AiI.fromModbusParameterData (((words 33).set 8 2).set 9 1)).map (·.chParams)
    (p.at? 0).map (·.measurementRange) = some .mA0To20 ∧
    (p.at? 1).map (·.measurementRange) = some .Disabled ∧
    (p.at? 2).map (·.channelDiagnostics) = some true := by decide +kernel

/-! ## `src/ur20_4ai_rtd_diag.rs` -/

/-- `Mod::default()`, with these measurement ranges. -/
def rtdMod (r : List RtdRange) : Module :=
  .rtd { Rtd.Mod.default with chParams :=
    (r.map fun x => { Rtd.ChannelParameters.default with measurementRange := x }) }

/-- `test_process_input_data_with_empty_buffer`. -/
example : (Module.processInputData (.rtd Rtd.Mod.default) []).isErr := by decide +kernel

/-- `test_process_input_data_with_missing_channel_parameters`. -/
example : (Module.processInputData (.rtd ⟨.Celsius, []⟩) [0, 0, 0, 0]).isErr := by decide +kernel

/-- `test_process_input_data_with_disabled_channels`. -/
example : Module.processInputData (.rtd Rtd.Mod.default) [5, 0, 7, 8] =
    .ok [disabled, disabled, disabled, disabled] := by decide +kernel

/-- `test_process_input_data`. -/
example : (rtdMod [.R40, .R40, .PT100, .PT1000]).processInputData [0x6C00, 0x7EFF, 55, 99] =
    .ok [dec 40, dec 47.03559, dec 5.5, dec 9.9] := by decide +kernel

/-- `test_process_input_data_with_negative_temperatures`. -/
example : (rtdMod [.PT100, .Cu10, .Disabled, .Disabled]).processInputData
    [0xF830, 0xFF38, 0, 0] = .ok [dec (-200), dec (-20), disabled, disabled] := by decide +kernel

/-- `test_process_input_data_with_underloading`. -/
example :
    let i := (rtdMod [.PT100, .NI1000, .Disabled, .Disabled]).processInputData
      [BitVec.ofInt 16 (-2040), BitVec.ofInt 16 (-640), 0, 0]
    i.at? 0 = some (dec (-204)) ∧ i.at? 1 = some (dec (-64)) := by decide +kernel

/-- `test_process_output_data`. -/
example : (Module.processOutputData (.rtd Rtd.Mod.default) (words 4)).isErr ∧
    Module.processOutputData (.rtd Rtd.Mod.default) [] = .ok (List.replicate 4 .none) := by
  decide +kernel

/-- `test_process_output_values`. -/
example : (Module.processOutputValues (.rtd Rtd.Mod.default) [dec 0]).isErr ∧
    Module.processOutputValues (.rtd Rtd.Mod.default) [] = .ok [] ∧
    Module.processOutputValues (.rtd Rtd.Mod.default) (List.replicate 4 .none) = .ok [] := by
  decide +kernel

/-- `test_module_parameters_from_raw_data`. -/
example : (Rtd.parametersFromRawData (words 29)).map (·.1) = .ok .Celsius ∧
    (Rtd.parametersFromRawData ((words 29).set 0 1)).map (·.1) = .ok .Fahrenheit ∧
    (Rtd.parametersFromRawData ((words 29).set 0 2)).map (·.1) = .ok .Kelvin := by decide +kernel

/-- `test_channel_parameters_from_raw_data`. -/
example :
    let p := (Rtd.parametersFromRawData
      [0, 18, 0, 2, 0, 0, 0, 0, 5, 1, 0, 0, 0, 0, 0, 0, 0, 1, 0, 0, 0, 0,
        0, 0, 0, 1, 1, 0x7FFF, 0x8000]).map (·.2)
    p.map List.length = .ok 4 ∧ p.at? 0 = some Rtd.ChannelParameters.default ∧
    (p.at? 1).map (·.measurementRange) = some .NI120 ∧
    (p.at? 1).map (·.connectionType) = some .ThreeWire ∧
    (p.at? 2).map (·.conversionTime) = some .ms130 ∧
    (p.at? 3).map (·.channelDiagnostics) = some true ∧
    (p.at? 3).map (·.limitValueMonitoring) = some true ∧
    (p.at? 3).map (·.highLimitValue) = some 32767 ∧
    (p.at? 3).map (·.lowLimitValue) = some (-32768) := by decide +kernel

/-- `test_parameters_from_invalid_raw_data`. -/
example : (Rtd.parametersFromRawData ((words 29).set 1 19)).isErr ∧
    (Rtd.parametersFromRawData ((words 29).set 2 3)).isErr ∧
    (Rtd.parametersFromRawData ((words 29).set 3 6)).isErr := by decide +kernel

/-- `test_parameters_from_invalid_data_buffer_size`. -/
example : (Rtd.parametersFromRawData (words 0)).isErr ∧
    (Rtd.parametersFromRawData (words 28)).isErr ∧
    (Rtd.parametersFromRawData (words 29)).isOk := by decide +kernel

/-- `create_module_from_modbus_parameter_data`. -/
example :
    let p := (Rtd.fromModbusParameterData (((words 29).set 1 1).set 8 18)).map (·.chParams)
    (p.at? 0).map (·.measurementRange) = some .PT200 ∧
    (p.at? 1).map (·.measurementRange) = some .Disabled := by decide +kernel

/-! ## `src/ur20_4ai_tc_diag.rs` -/

/-- `Mod::default()`, with these measurement ranges. -/
def tcMod (r : Vector TcRange 4) : Module :=
  .tc { Tc.Mod.default with chParams :=
    (r.map fun x => { Tc.ChannelParameters.default with measurementRange := x }) }

/-- `assert_approx_equal` for the elements of a list. -/
def allNear (x : Res (List ChannelValue)) (l : List Rat) : Bool :=
  match x with
  | .ok vs => vs.length == l.length && (vs.zip l).all fun p => near p.1 p.2 (1 / 10000)
  | _ => false

/-- `test_process_input_data_wrong_size`. -/
example : (Module.processInputData (.tc Tc.Mod.default) (words 0)).isErr ∧
    (Module.processInputData (.tc Tc.Mod.default) (words 1)).isErr ∧
    (Module.processInputData (.tc Tc.Mod.default) (words 2)).isErr ∧
    (Module.processInputData (.tc Tc.Mod.default) (words 3)).isErr ∧
    (Module.processInputData (.tc Tc.Mod.default) (words 4)).isOk ∧
    (Module.processInputData (.tc Tc.Mod.default) (words 5)).isErr := by decide +kernel

/-- `test_process_input_data`. -/
example :
    let m := tcMod #v[.TC_Type_K, .VPlusMinus2, .mVPlusMinus500, .uVPlusMinus15625]
    let m' := tcMod #v[.Disabled, .VPlusMinus2, .mVPlusMinus500, .uVPlusMinus15625]
    Tc.Mod.default.chParams.toList.map (·.measurementRange) = List.replicate 4 .Disabled ∧
    Module.processInputData (.tc Tc.Mod.default) [0, 0, 0, 0] = .ok (List.replicate 4 disabled) ∧
    allNear (m.processInputData [BitVec.ofInt 16 (-2000), 0, 0, 0]) [-200, 0, 0, 0] ∧
    allNear (m.processInputData [0, 16384, 16384, 16384]) [0, 1, 0.25, 0.0078125] ∧
    (m.processInputData [32767, 32767, 32767, 32767]).at? 0 = some .none ∧
    allNear ((m.processInputData [32767, 32767, 32767, 32767]).map List.tail)
      [2, 0.5, 0.015625] ∧
    (m'.processInputData [1000, 0, 0, 0]).at? 0 = some disabled ∧
    allNear ((m'.processInputData [1000, 0, 0, 0]).map List.tail) [0, 0, 0] := by decide +kernel

/-- `test_process_input_data_with_underloading`. -/
example : allNear (((tcMod #v[.TC_Type_B, .TC_Type_J, .Disabled, .Disabled]).processInputData
    [460, BitVec.ofInt 16 (-2140), 0, 0]).map (List.take 2)) [46, -214] := by decide +kernel

/-- `test_process_output_data`. -/
example : (Module.processOutputData (.tc Tc.Mod.default) (words 4)).isErr ∧
    Module.processOutputData (.tc Tc.Mod.default) [] = .ok (List.replicate 4 .none) := by
  decide +kernel

/-- `test_process_output_values`. -/
example : (Module.processOutputValues (.tc Tc.Mod.default) [dec 0]).isErr ∧
    Module.processOutputValues (.tc Tc.Mod.default) [] = .ok [] ∧
    Module.processOutputValues (.tc Tc.Mod.default) (List.replicate 4 .none) = .ok [] := by
  decide +kernel

/-- `test_module_parameters_from_raw_data`. -/
example : (Tc.parametersFromRawData (words 29)).map (·.1) = .ok .Celsius ∧
    (Tc.parametersFromRawData ((words 29).set 0 1)).map (·.1) = .ok .Fahrenheit := by
  decide +kernel

/-- `test_channel_parameters_from_raw_data`. -/
example :
    let p := (Tc.parametersFromRawData
      [0, 19, 0, 2, 0, 0, 32767, BitVec.ofInt 16 (-32768), 1, 1, 1, 1, 1, 1000,
        BitVec.ofInt 16 (-1000), 19, 0, 0, 0, 0, 0, 0, 11, 4, 2, 0, 0, 0, 0]).map (·.2.toList)
    p.map List.length = .ok 4 ∧ p.at? 0 = some Tc.ChannelParameters.default ∧
    p.at? 1 = some ⟨.TC_Type_K, .ExternalChannel0, .ms130, true, true, 1000, -1000⟩ ∧
    (p.at? 2).map (·.measurementRange) = some .Disabled ∧
    (p.at? 3).map (·.measurementRange) = some .uVPlusMinus15625 ∧
    (p.at? 3).map (·.coldJunctionCompensation) = some .ExternalChannel3 := by decide +kernel

/-- `test_parameters_from_invalid_raw_data`. -/
example : (Tc.parametersFromRawData ((words 29).set 0 3)).isErr ∧
    (Tc.parametersFromRawData ((words 29).set 1 20)).isErr ∧
    (Tc.parametersFromRawData ((words 29).set 2 5)).isErr ∧
    (Tc.parametersFromRawData ((words 29).set 3 6)).isErr ∧
    (Tc.parametersFromRawData ((words 29).set 4 2)).isErr ∧
    (Tc.parametersFromRawData ((words 29).set 5 2)).isErr := by decide +kernel

/-- `test_parameters_from_invalid_data_buffer_size`. -/
example : (Tc.parametersFromRawData (words 0)).isErr ∧
    (Tc.parametersFromRawData (words 28)).isErr ∧
    (Tc.parametersFromRawData (words 29)).isOk := by decide +kernel

/-- `create_module_from_modbus_parameter_data`. -/
example :
    let m := Tc.fromModbusParameterData
      [1, 0, 0, 0, 0, 0, 32767, BitVec.ofInt 16 (-32768), 19, 0, 0, 0, 0, 0, 0,
        1, 0, 0, 1, 0, 0, 0, 0, 0, 0, 0, 0, 0, 0]
    let p := m.map (·.chParams.toList)
    m.map (·.temperatureUnit) = .ok .Fahrenheit ∧
    (p.at? 0).map (·.measurementRange) = some .TC_Type_J ∧
    (p.at? 1).map (·.measurementRange) = some .Disabled ∧
    (p.at? 2).map (·.channelDiagnostics) = some true := by decide +kernel

end Ur20.Conformance
