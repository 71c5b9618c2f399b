import Verif.Lemmas.SourceDigital
import Verif.Source.Ur20_4ao_ui_16
import Verif.Source.Ur20_4ao_ui_16_diag
import Verif.Source.Ur20_ai_ui_generic
import Verif.Source.Ur20_4ai_ui_16_diag
import Verif.Source.Ur20_8ai_i_16_diag_hd
import Verif.Source.Ur20_4ai_rtd_diag

/-!
The translated source of the analog modules is the model of them.
-/

namespace Ur20.Src

theorem bind_congr' {α β : Type} {x y : Res α} {f g : α → Res β} (h : x = y) (hf : ∀ a, f a = g a) :
    x.bind f = y.bind g := by
  rw [h, funext hf]

/-- `match o { Some(x) => x, _ => return Err(e) }` is `Res.ofOption e o`. -/
macro "opt_step" : tactic => `(tactic| (
  split
  · rename_i h; rw [h]; rfl
  · rename_i h; rw [Option.eq_none_iff_forall_ne_some.2 h]; rfl))

/-- Compares two sequences of steps. -/
macro "binds" : tactic => `(tactic|
  repeat' (first | with_reducible rfl | (refine bind_congr' ?_ fun _ => ?_) | opt_step))

theorem mapRes_bind_conv2 {α β γ δ ε : Type} {f : α → Res β} {f' : α → Res γ} (g : β → γ) (e : ε)
    (k : ε → List γ → δ) {l : List α} (h : ∀ a ∈ l, (f a).map g = f' a) :
    ((mapRes f l).bind fun a => .ok (k e (a.map g))) = (mapRes f' l).bind fun a => .ok (k e a) :=
  mapRes_bind_conv g (k e) h

theorem mapRes_of_map {α β γ : Type} (g : α → β) (f : β → Res γ) (l : List α) :
    mapRes f (l.map g) = mapRes (fun a => f (g a)) l := by
  induction l with
  | nil => rfl
  | cons a l ih => simp only [List.map_cons, mapRes_cons, ih]

/-! ## `src/ur20_4ao_ui_16.rs` -/

namespace ur20_4ao_ui_16

/-- The module as the model has it. -/
def Mod.conv (m : Mod) : Ao.Mod :=
  ⟨m.chParams.map fun p => ⟨p.dataFormat, p.outputRange, p.substituteValue⟩⟩

theorem from_eq (oc : Bool) (data : List Word) :
    (Mod.from_modbus_parameter_data oc data).map Mod.conv = Ao.fromModbusParameterData data := by
  simp only [Mod.from_modbus_parameter_data, parameters_from_raw_data, Res.bind_eq, Res.pure_eq,
    guard_bind, index_eq, collect_map_range, mul_nat, add_nat, Res.bind_ok,
    Ao.fromModbusParameterData, Ao.parametersFromRawData, decide_eq_true_eq,
    DataFormat_from_u16, AnalogUIRange_from_u16, ChannelParameters.default]
  split
  · rfl
  rw [capture_release, res_map_bind]
  refine mapRes_bind_conv _ Ao.Mod.mk fun i _ => ?_
  simp only [res_map_bind, Ao.channelFromRawData, Res.bind_eq, Res.pure_eq, codeParam,
    u16_to_analog_ui_value_eq, Res.bind_ok]
  binds

theorem default_eq (oc : Bool) : (Mod.default oc).map Mod.conv = .ok Ao.Mod.default := rfl

theorem value_to_u16_eq (oc : Bool) (v : ChannelValue) (r : AnalogUIRange) (d : DataFormat) :
    value_to_u16 oc v r d = valueToU16 v r d := by
  cases v <;> simp [value_to_u16, valueToU16, analog_ui_value_to_u16_eq]

theorem dyn_eq (oc : Bool) (m : Mod) : ToDyn.toDyn oc m = dynOf (.ao m.conv) := by
  simp only [ToDyn.toDyn, dynOf, Dyn.mk.injEq]
  refine ⟨rfl, rfl, rfl, ?_, ?_, ?_⟩
  · funext data; exact default_input_eq oc _ data
  · funext data
    simp only [Mod.process_output_data, Res.bind_eq, Res.pure_eq, guard_bind,
      index_eq, map_map_iter, collect_map_iter, Module.processOutputData, enumerate_iter,
      Ao.Mod.processOutputData, bne_iff_ne, mapRes_of_map, Mod.conv, idx_map, res_bind_map,
      u16_to_analog_ui_value_eq, Res.bind_ok]
    split
    · rfl
    refine mapRes_congr' fun p _ => ?_
    cases idx m.chParams p.2 with
    | ok c =>
      simp only [Res.bind_ok]
      cases u16ToAnalogUiValue p.1 c.outputRange c.dataFormat <;> rfl
    | _ => rfl
  · funext values
    simp only [Mod.process_output_values, Res.bind_eq, Res.pure_eq, guard_bind, 
      index_eq, map_map_iter, collect_map_iter, Module.processOutputValues, enumerate_iter,
      Ao.Mod.processOutputValues, bne_iff_ne, value_to_u16_eq, mapRes_of_map, Mod.conv, idx_map,
      res_bind_map, List.length_map]
    split
    · rfl
    split
    · rfl
    refine mapRes_congr' fun p _ => ?_
    cases idx m.chParams p.2 <;> rfl

end ur20_4ao_ui_16

/-! ## `src/ur20_4ao_ui_16_diag.rs` -/

namespace ur20_4ao_ui_16_diag

/-- The module as the model has it. -/
def Mod.conv (m : Mod) : AoDiag.Mod :=
  ⟨m.chParams.map fun p => ⟨p.dataFormat, p.outputRange, p.substituteValue, p.channelDiagnostics⟩⟩

theorem from_eq (oc : Bool) (data : List Word) :
    (Mod.from_modbus_parameter_data oc data).map Mod.conv = AoDiag.fromModbusParameterData data := by
  simp only [Mod.from_modbus_parameter_data, parameters_from_raw_data, Res.bind_eq, Res.pure_eq,
    guard_bind, index_eq, collect_map_range, mul_nat, add_nat, Res.bind_ok,
    AoDiag.fromModbusParameterData, AoDiag.parametersFromRawData, decide_eq_true_eq,
    DataFormat_from_u16, AnalogUIRange_from_u16, ChannelParameters.default, bool_eq]
  split
  · rfl
  rw [capture_release, res_map_bind]
  refine mapRes_bind_conv _ AoDiag.Mod.mk fun i _ => ?_
  simp only [res_map_bind, AoDiag.channelFromRawData, Res.bind_eq, Res.pure_eq, codeParam,
    u16_to_analog_ui_value_eq, Res.bind_ok]
  binds

theorem default_eq (oc : Bool) : (Mod.default oc).map Mod.conv = .ok AoDiag.Mod.default := rfl

theorem value_to_u16_eq (oc : Bool) (v : ChannelValue) (r : AnalogUIRange) (d : DataFormat) :
    value_to_u16 oc v r d = valueToU16 v r d := by
  cases v <;> simp [value_to_u16, valueToU16, analog_ui_value_to_u16_eq]

theorem dyn_eq (oc : Bool) (m : Mod) : ToDyn.toDyn oc m = dynOf (.aoDiag m.conv) := by
  simp only [ToDyn.toDyn, dynOf, Dyn.mk.injEq]
  refine ⟨rfl, rfl, rfl, ?_, ?_, ?_⟩
  · funext data; exact default_input_eq oc _ data
  · funext data
    simp only [Mod.process_output_data, Res.bind_eq, Res.pure_eq, guard_bind,
      index_eq, map_map_iter, collect_map_iter, Module.processOutputData, enumerate_iter,
      AoDiag.Mod.processOutputData, bne_iff_ne, mapRes_of_map, Mod.conv, idx_map, res_bind_map,
      u16_to_analog_ui_value_eq, Res.bind_ok]
    split
    · rfl
    refine mapRes_congr' fun p _ => ?_
    cases idx m.chParams p.2 with
    | ok c =>
      simp only [Res.bind_ok]
      cases u16ToAnalogUiValue p.1 c.outputRange c.dataFormat <;> rfl
    | _ => rfl
  · funext values
    simp only [Mod.process_output_values, Res.bind_eq, Res.pure_eq, guard_bind, 
      index_eq, map_map_iter, collect_map_iter, Module.processOutputValues, enumerate_iter,
      AoDiag.Mod.processOutputValues, bne_iff_ne, value_to_u16_eq, mapRes_of_map, Mod.conv, idx_map,
      res_bind_map, List.length_map]
    split
    · rfl
    split
    · rfl
    refine mapRes_congr' fun p _ => ?_
    cases idx m.chParams p.2 <;> rfl

end ur20_4ao_ui_16_diag

/-! ## `src/ur20_ai_ui_generic.rs` -/

namespace ur20_ai_ui_generic

/-- The module as the model has it. -/
def Mod.conv (v : Ai.Variant) (m : Mod v.moduleType) : Ai.Mod :=
  ⟨v, m.modParams.frequencySuppression, m.chParams.map fun p =>
    ⟨p.dataFormat, p.measurementRange⟩⟩

theorem from_eq (oc : Bool) (v : Ai.Variant) (data : List Word) :
    (Mod.from_modbus_parameter_data oc v.moduleType data).map (Mod.conv v) =
      Ai.fromModbusParameterData v data := by
  simp only [Mod.from_modbus_parameter_data, parameters_from_raw_data, Res.bind_eq, Res.pure_eq,
    guard_bind, index_eq, collect_map_range, mul_nat, add_nat, Res.bind_ok, channel_count_eq,
    Ai.fromModbusParameterData, Ai.parametersFromRawData, decide_eq_true_eq,
    DataFormat_from_u16, AnalogUIRange_from_u16, ChannelParameters.default, FrequencySuppression_from_u16, capture_bind_release]
  split
  · rfl
  simp only [Res.bind_assoc, res_map_bind, Res.bind_ok, Res.map_ok, codeParam]
  refine bind_congr' rfl fun w => ?_
  refine bind_congr' (by binds) fun x => ?_
  refine mapRes_bind_conv2 _ x (Ai.Mod.mk v) fun i _ => ?_
  simp only [res_map_bind, Ai.channelFromRawData, Res.bind_eq, Res.pure_eq, codeParam, Res.map_ok]

theorem default_eq (oc : Bool) (v : Ai.Variant) :
    (Mod.default oc v.moduleType).map (Mod.conv v) = .ok (Ai.Mod.default v) := by
  cases v <;> rfl

theorem dyn_eq (oc : Bool) (v : Ai.Variant) (m : Mod v.moduleType) : ToDyn.toDyn oc m = dynOf (.ai (m.conv v)) := by
  simp only [ToDyn.toDyn, dynOf, Dyn.mk.injEq]
  refine ⟨rfl, ?_, rfl, ?_, ?_, ?_⟩
  · simp only [Mod.process_input_byte_count, Res.bind_eq, channel_count_eq, Res.bind_ok, mul_nat,
      Module.inputByteCount, Ai.Mod.inputByteCount, Mod.conv]
  · funext data
    simp only [Mod.process_input_data, Res.bind_eq, Res.pure_eq, guard_bind,
      index_eq, map_map_iter, collect_map_range, Module.processInputData, channel_count_eq,
      Ai.Mod.processInputData, bne_iff_ne, Mod.conv, idx_map, res_bind_map, List.length_map,
      u16_to_analog_ui_value_eq, Res.bind_ok]
    split
    · rfl
    split
    · rfl
    rw [res_bind_self]
    refine mapRes_congr' fun i _ => ?_
    cases idx data i with
    | ok w =>
      cases idx m.chParams i with
      | ok c =>
        simp only [Res.bind_ok]
        cases u16ToAnalogUiValue w c.measurementRange c.dataFormat <;> rfl
      | _ => rfl
    | _ => rfl
  · funext data; exact default_output_eq oc _ data
  · funext values; exact default_values_eq oc _ values

end ur20_ai_ui_generic

/-! ## `src/ur20_4ai_ui_16_diag.rs` -/

namespace ur20_4ai_ui_16_diag

/-- The module as the model has it. -/
def Mod.conv (m : Mod) : AiDiag.Mod :=
  ⟨m.modParams.frequencySuppression, m.chParams.map fun p =>
    ⟨p.channelDiagnostics, p.diagShortCircuit, p.diagLineBreak, p.dataFormat, p.measurementRange⟩⟩

theorem from_eq (oc : Bool) (data : List Word) :
    (Mod.from_modbus_parameter_data oc data).map Mod.conv =
      AiDiag.fromModbusParameterData data := by
  simp only [Mod.from_modbus_parameter_data, parameters_from_raw_data, Res.bind_eq, Res.pure_eq,
    guard_bind, index_eq, collect_map_range, mul_nat, add_nat, Res.bind_ok,
    AiDiag.fromModbusParameterData, AiDiag.parametersFromRawData, decide_eq_true_eq,
    DataFormat_from_u16, AnalogUIRange_from_u16, bool_eq, ChannelParameters.default, FrequencySuppression_from_u16, capture_bind_release]
  split
  · rfl
  simp only [Res.bind_assoc, res_map_bind, Res.bind_ok, Res.map_ok, codeParam]
  refine bind_congr' rfl fun w => ?_
  refine bind_congr' (by binds) fun x => ?_
  refine mapRes_bind_conv2 _ x (AiDiag.Mod.mk) fun i _ => ?_
  simp only [res_map_bind, AiDiag.channelFromRawData, Res.bind_eq, Res.pure_eq, codeParam, Res.map_ok]

theorem default_eq (oc : Bool) :
    (Mod.default oc).map Mod.conv = .ok AiDiag.Mod.default := by
  rfl

theorem dyn_eq (oc : Bool) (m : Mod) : ToDyn.toDyn oc m = dynOf (.aiDiag (m.conv)) := by
  simp only [ToDyn.toDyn, dynOf, Dyn.mk.injEq]
  refine ⟨rfl, rfl, rfl, ?_, ?_, ?_⟩
  · funext data
    simp only [Mod.process_input_data, Res.bind_eq, Res.pure_eq, guard_bind,
      index_eq, map_map_iter, collect_map_range, Module.processInputData,
      AiDiag.Mod.processInputData, bne_iff_ne, Mod.conv, idx_map, res_bind_map, List.length_map,
      u16_to_analog_ui_value_eq, Res.bind_ok]
    split
    · rfl
    split
    · rfl
    rw [res_bind_self]
    refine mapRes_congr' fun i _ => ?_
    cases idx data i with
    | ok w =>
      cases idx m.chParams i with
      | ok c =>
        simp only [Res.bind_ok]
        cases u16ToAnalogUiValue w c.measurementRange c.dataFormat <;> rfl
      | _ => rfl
    | _ => rfl
  · funext data
    simp only [Mod.process_output_data, Res.bind_eq, Res.pure_eq, guard_bind, collect_map_range,
      Module.processOutputData, AiDiag.Mod.processOutputData]
    rfl
  · funext values; exact default_values_eq oc _ values

end ur20_4ai_ui_16_diag

/-! ## `src/ur20_8ai_i_16_diag_hd.rs` -/

namespace ur20_8ai_i_16_diag_hd

/-- The module as the model has it. -/
def Mod.conv (m : Mod) : AiI.Mod :=
  ⟨m.modParams.frequencySuppression, m.chParams.map fun p =>
    ⟨p.channelDiagnostics, p.diagShortCircuit, p.dataFormat, p.measurementRange⟩⟩

theorem from_eq (oc : Bool) (data : List Word) :
    (Mod.from_modbus_parameter_data oc data).map Mod.conv =
      AiI.fromModbusParameterData data := by
  simp only [Mod.from_modbus_parameter_data, parameters_from_raw_data, Res.bind_eq, Res.pure_eq,
    guard_bind, index_eq, collect_map_range, mul_nat, add_nat, Res.bind_ok,
    AiI.fromModbusParameterData, AiI.parametersFromRawData, decide_eq_true_eq,
    DataFormat_from_u16, AnalogIRange_from_u16, bool_eq, ChannelParameters.default, FrequencySuppression_from_u16, capture_bind_release]
  split
  · rfl
  simp only [Res.bind_assoc, res_map_bind, Res.bind_ok, Res.map_ok, codeParam]
  refine bind_congr' rfl fun w => ?_
  refine bind_congr' (by binds) fun x => ?_
  refine mapRes_bind_conv2 _ x (AiI.Mod.mk) fun i _ => ?_
  simp only [res_map_bind, AiI.channelFromRawData, Res.bind_eq, Res.pure_eq, codeParam, Res.map_ok]
  binds

theorem default_eq (oc : Bool) :
    (Mod.default oc).map Mod.conv = .ok AiI.Mod.default := by
  rfl

theorem dyn_eq (oc : Bool) (m : Mod) : ToDyn.toDyn oc m = dynOf (.aiI (m.conv)) := by
  simp only [ToDyn.toDyn, dynOf, Dyn.mk.injEq]
  refine ⟨rfl, rfl, rfl, ?_, ?_, ?_⟩
  · funext data
    simp only [Mod.process_input_data, Res.bind_eq, Res.pure_eq, guard_bind,
      index_eq, map_map_iter, collect_map_range, Module.processInputData,
      AiI.Mod.processInputData, bne_iff_ne, Mod.conv, idx_map, res_bind_map, List.length_map,
      factor_eq, word_i16_f32, mul_f32, div_f32, add_f32, Res.bind_ok]
    split
    · rfl
    split
    · rfl
    rw [res_bind_self]
    refine mapRes_congr' fun i _ => ?_
    cases idx data i with
    | ok w =>
      cases idx m.chParams i with
      | ok c =>
        simp only [Res.bind_ok]
        cases h : c.measurementRange <;> simp only [AiI.value]
      | _ => rfl
    | _ => rfl
  · funext data; exact default_output_eq oc _ data
  · funext values; exact default_values_eq oc _ values

end ur20_8ai_i_16_diag_hd

/-! ## `src/ur20_4ai_rtd_diag.rs` -/

namespace ur20_4ai_rtd_diag

/-- The module as the model has it. -/
def Mod.conv (m : Mod) : Rtd.Mod :=
  ⟨m.modParams.temperatureUnit, m.chParams.map fun p =>
    ⟨p.measurementRange, p.connectionType, p.conversionTime, p.channelDiagnostics,
      p.limitValueMonitoring, p.highLimitValue.bits.toInt, p.lowLimitValue.bits.toInt⟩⟩

theorem from_eq (oc : Bool) (data : List Word) :
    (Mod.from_modbus_parameter_data oc data).map Mod.conv =
      Rtd.fromModbusParameterData data := by
  simp only [Mod.from_modbus_parameter_data, parameters_from_raw_data, Res.bind_eq, Res.pure_eq,
    guard_bind, index_eq, collect_map_range, mul_nat, add_nat, Res.bind_ok,
    Rtd.fromModbusParameterData, Rtd.parametersFromRawData, decide_eq_true_eq,
    RtdRange_from_u16, ConnectionType_from_u16, ConversionTime_from_u16, bool_eq, ChannelParameters.default, TemperatureUnit_from_u16, capture_bind_release]
  split
  · rfl
  simp only [Res.bind_assoc, res_map_bind, Res.bind_ok, Res.map_ok, codeParam]
  refine bind_congr' rfl fun w => ?_
  refine bind_congr' (by binds) fun x => ?_
  refine mapRes_bind_conv2 _ x (Rtd.Mod.mk) fun i _ => ?_
  simp only [res_map_bind, Rtd.channelFromRawData, Res.bind_eq, Res.pure_eq, codeParam, Res.map_ok]
  binds
  rfl

theorem default_eq (oc : Bool) :
    (Mod.default oc).map Mod.conv = .ok Rtd.Mod.default := by
  rfl

theorem dyn_eq (oc : Bool) (m : Mod) : ToDyn.toDyn oc m = dynOf (.rtd (m.conv)) := by
  simp only [ToDyn.toDyn, dynOf, Dyn.mk.injEq]
  refine ⟨rfl, rfl, rfl, ?_, ?_, ?_⟩
  · funext data
    simp only [Mod.process_input_data, Res.bind_eq, Res.pure_eq, guard_bind,
      index_eq, map_map_iter, collect_map_range, Module.processInputData,
      Rtd.Mod.processInputData, bne_iff_ne, Mod.conv, idx_map, res_bind_map, List.length_map,
      u16_to_rtd_value_eq, Res.bind_ok]
    split
    · rfl
    split
    · rfl
    rw [res_bind_self]
    refine mapRes_congr' fun i _ => ?_
    cases idx data i with
    | ok w =>
      cases idx m.chParams i with
      | ok c =>
        simp only [Res.bind_ok]
        cases u16ToRtdValue w c.measurementRange <;> rfl
      | _ => rfl
    | _ => rfl
  · funext data; exact default_output_eq oc _ data
  · funext values; exact default_values_eq oc _ values

end ur20_4ai_rtd_diag

end Ur20.Src
