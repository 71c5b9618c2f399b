import Verif.Lemmas.SourceAnalog
import Verif.Source.Ur20_4ai_tc_diag

/-!
The translated source of the thermocouple module is the model of it.
-/

namespace Ur20.Src.ur20_4ai_tc_diag

theorem chunks_eq (fuel : Nat) (l : List Word) (h : l.length ≤ fuel) :
    ((chunksFrom 7 fuel l).filter fun c => decide (c.length = 7)) = Tc.chunksExact7 l := by
  induction fuel generalizing l with
  | zero =>
    have : l = [] := List.length_eq_zero_iff.1 (by omega)
    subst this; rfl
  | succ fuel ih =>
    match l with
    | [] => rfl
    | a :: b :: c :: d :: e :: f :: g :: l =>
      simp only [chunksFrom, List.isEmpty_cons, Bool.false_eq_true, if_false, List.drop_succ_cons,
        List.drop_zero, List.take_succ_cons, List.take_zero, Tc.chunksExact7]
      rw [List.filter_cons_of_pos (by rfl), ih l (by simp only [List.length_cons] at h; omega)]
    | [_] | [_, _] | [_, _, _] | [_, _, _, _] | [_, _, _, _, _] | [_, _, _, _, _, _] =>
      cases fuel <;> simp [chunksFrom, Tc.chunksExact7]

/-- The channel parameters as the model has them. -/
def ChannelParameters.conv (p : ChannelParameters) : Tc.ChannelParameters :=
  ⟨p.measurementRange, p.coldJunctionCompensation, p.conversionTime, p.channelDiagnostics,
    p.limitValueMonitoring, p.highLimitValue.bits.toInt, p.lowLimitValue.bits.toInt⟩

/-- The module as the model has it. The four channel parameters are an array. -/
def Mod.conv (m : Mod) : Tc.Mod :=
  ⟨m.modParams.temperatureUnit, Vector.ofFn fun i : Fin 4 =>
    ((m.chParams[i.val]?).map ChannelParameters.conv).getD Tc.ChannelParameters.default⟩

theorem from_eq (oc : Bool) (data : List Word) :
    (Mod.from_modbus_parameter_data oc data).map Mod.conv = Tc.fromModbusParameterData data := by
  simp only [Mod.from_modbus_parameter_data, parameters_from_raw_data, Res.bind_eq, Res.pure_eq,
    guard_bind, index_eq, Tc.fromModbusParameterData, Tc.parametersFromRawData, decide_eq_true_eq,
    TemperatureUnit_from_u16, TcRange_from_u16, ColdJunctionCompensation_from_u16,
    ConversionTime_from_u16, bool_eq]
  split
  · rfl
  rename_i hl
  simp only [Res.bind_assoc, res_map_bind, Res.bind_ok, Res.map_ok, codeParam, r_slice_from,
    if_pos (show 1 ≤ data.length by omega), r_chunks_exact, chunks_eq _ _ (Nat.le_refl _)]
  refine bind_congr' rfl fun w => ?_
  refine bind_congr' rfl fun x => ?_
  rw [show ∀ l : List (List Word), l.map Res.ok = r_iter l from fun _ => rfl, collect_map_iter]
  have hc : mapRes Tc.channelFromChunk (Tc.chunksExact7 (data.drop 1)) = (mapRes (fun data =>
      (idx data 0).bind fun t4 => (Res.ofOption Error.channelParameter (TcRange.fromU16 t4)).bind
        fun t5 => (idx data 1).bind fun t6 =>
        (Res.ofOption Error.channelParameter (ColdJunctionCompensation.fromU16 t6)).bind fun t7 =>
        (idx data 2).bind fun t8 =>
        (Res.ofOption Error.channelParameter (ConversionTime.fromU16 t8)).bind fun t9 =>
        (idx data 3).bind fun t10 => (boolParam t10).bind fun t11 =>
        (idx data 4).bind fun t12 => (boolParam t12).bind fun t13 =>
        (idx data 5).bind fun t14 => (idx data 6).bind fun t15 =>
        Res.ok ({ measurementRange := t5, coldJunctionCompensation := t7, conversionTime := t9,
                  channelDiagnostics := t11, limitValueMonitoring := t13,
                  highLimitValue := (r_as t14 : I16), lowLimitValue := (r_as t15 : I16) } :
                  ChannelParameters)) (Tc.chunksExact7 (data.drop 1))).map
        (List.map ChannelParameters.conv) := by
    rw [mapRes_map]
    refine mapRes_congr' fun c _ => ?_
    simp only [Tc.channelFromChunk, res_map_bind, Res.map_ok, Res.bind_eq, Res.pure_eq, codeParam]
    rfl
  rw [hc, res_bind_map]
  refine bind_congr' rfl fun cs => ?_
  simp only [r_to_array, Tc.toArray4]
  match cs with
  | [] | [_] | [_, _] | [_, _, _] => rfl
  | [_, _, _, _] => rfl
  | _ :: _ :: _ :: _ :: _ :: _ => simp

theorem from_length {oc : Bool} {data : List Word} {m : Mod}
    (h : Mod.from_modbus_parameter_data oc data = .ok m) : m.chParams.length = 4 := by
  simp only [Mod.from_modbus_parameter_data, parameters_from_raw_data, Res.bind_eq, Res.pure_eq,
    Res.bind_eq_ok, r_to_array] at h
  obtain ⟨_, ⟨_, _, _, _, _, _, _, _, _, _, l, h2, h3⟩, h4⟩ := h
  split at h2
  · cases h2; cases h3; cases h4; assumption
  · cases h2

theorem default_eq (oc : Bool) :
    (Mod.default oc).map Mod.conv = .ok Tc.Mod.default := by
  rfl

theorem is_enabled_eq (oc : Bool) (p : ChannelParameters) :
    ChannelParameters.is_enabled oc p = .ok p.conv.isEnabled := by
  simp only [ChannelParameters.is_enabled, Tc.ChannelParameters.isEnabled, ChannelParameters.conv]
  cases p.measurementRange <;> rfl

theorem u16_to_thermal_value_eq (oc : Bool) (w : Word) (r : TcRange) :
    u16_to_thermal_value oc w r = .ok (u16ToThermalValue w r) := by
  have h : ∀ {a b : Option F32}, (if (w == 32767) = true then Res.ok a else Res.ok b) =
      .ok (if w = 32767#16 then a else b) := by
    intro a b; by_cases h : w = 32767#16 <;> simp [h]
  have e1 : (3125 / 100000 : Rat) = 31250 / 1000000 := by norm_num
  have e2 : (625 / 10000 : Rat) = 62500 / 1000000 := by norm_num
  have e3 : (25 / 100 : Rat) = 250 / 1000 := by norm_num
  have e4 : (5 / 10 : Rat) = 500 / 1000 := by norm_num
  cases r <;> simp only [u16_to_thermal_value, u16ToThermalValue, Res.bind_eq, Res.pure_eq,
    mul_f32, div_f32, Res.bind_ok, word_i16_f32, h, e1, e2, e3, e4]

theorem ofFn_toList {α : Type} (l : List α) (d : α) (h : l.length = 4) :
    (Vector.ofFn fun i : Fin 4 => (l[i.val]?).getD d).toList = l := by
  match l, h with
  | [a, b, c, e], _ => rfl

theorem conv_toList (m : Mod) (hm : m.chParams.length = 4) :
    m.conv.chParams.toList = m.chParams.map ChannelParameters.conv := by
  simp only [Mod.conv, ← List.getElem?_map]
  exact ofFn_toList _ _ (by rw [List.length_map, hm])

theorem dyn_eq (oc : Bool) (m : Mod) (hm : m.chParams.length = 4) :
    ToDyn.toDyn oc m = dynOf (.tc m.conv) := by
  simp only [ToDyn.toDyn, dynOf, Dyn.mk.injEq]
  refine ⟨rfl, rfl, rfl, ?_, ?_, ?_⟩
  · funext data
    simp only [Mod.process_input_data, Res.bind_eq, Res.pure_eq, guard_bind, zip_iter,
      collect_map_iter, Module.processInputData, Tc.Mod.processInputData, bne_iff_ne,
      is_enabled_eq, u16_to_thermal_value_eq, Res.bind_ok, conv_toList m hm, res_bind_self]
    by_cases hd : data.length ≠ 4
    · rw [if_pos hd, if_pos hd]
    rw [if_neg hd, if_neg hd, List.zipWith_map_right]
    refine Eq.trans ?_ (congrArg Res.ok
      (List.map_zip_eq_zipWith (f := fun p : Word × ChannelParameters => Tc.value p.1 p.2.conv)))
    refine Eq.trans ?_ (mapRes_ok _ _)
    refine mapRes_congr' fun p _ => ?_
    simp only [Tc.value]
    have hr : p.2.conv.measurementRange = p.2.measurementRange := rfl
    rw [hr]
    generalize u16ToThermalValue p.1 p.2.measurementRange = o
    cases p.2.conv.isEnabled <;> cases o <;> rfl
  · funext data; exact default_output_eq oc _ data
  · funext values; exact default_values_eq oc _ values

end Ur20.Src.ur20_4ai_tc_diag
