import Verif.Spec.SourceModules
import Verif.Lemmas.SourceCoupler

/-!
# C135: every module of the translated source is the module of the model
-/

namespace Ur20

open Src

theorem Src.dyn_made {M M' : Type} [ToDyn M] (oc : Bool) {x : Res M} {y : Res M'} (g : M → M')
    (c : M' → Module) (h : x.map g = y)
    (hd : ∀ m, x = .ok m → ToDyn.toDyn oc m = dynOf (c (g m))) :
    x.map (ToDyn.toDyn oc) = (y.map c).map dynOf := by
  subst h
  cases x with
  | ok m => simp only [Res.map_ok, hd m rfl]
  | err e => rfl
  | panic => rfl

theorem Src.create_eq (oc : Bool) (t : ModuleType) (param : List Word) :
    Spec.Src.create oc t param = (Module.create t param).map dynOf := by
  cases t <;> simp only [Spec.Src.create, Module.create]
  all_goals try rfl
  · exact dyn_made oc _ _ (ur20_di_generic.from_eq oc .UR20_4DI_P param)
      fun m _ => ur20_di_generic.dyn_eq oc .UR20_4DI_P m
  · exact dyn_made oc _ _ (ur20_di_generic.from_eq oc .UR20_8DI_P_2W param)
      fun m _ => ur20_di_generic.dyn_eq oc .UR20_8DI_P_2W m
  · exact dyn_made oc _ _ (ur20_do_generic.from_eq oc .UR20_4DO_P param)
      fun m _ => ur20_do_generic.dyn_eq oc .UR20_4DO_P m
  · exact dyn_made oc _ _ (ur20_do_generic.from_eq oc .UR20_4DO_P_2A param)
      fun m _ => ur20_do_generic.dyn_eq oc .UR20_4DO_P_2A m
  · exact dyn_made oc _ _ (ur20_do_generic.from_eq oc .UR20_8DO_P param)
      fun m _ => ur20_do_generic.dyn_eq oc .UR20_8DO_P m
  · rw [← ur20_16do_p.from_eq oc param]
    cases ur20_16do_p.Mod.from_modbus_parameter_data oc param with
    | ok m => simp only [Res.map_ok, ur20_16do_p.dyn_eq]
    | err e => rfl
    | panic => rfl
  · exact dyn_made oc _ _ (ur20_4ro_co_255.from_eq oc param)
      fun m _ => ur20_4ro_co_255.dyn_eq oc m
  · exact dyn_made oc _ _ (ur20_ai_ui_generic.from_eq oc .UR20_4AI_UI_16 param)
      fun m _ => ur20_ai_ui_generic.dyn_eq oc .UR20_4AI_UI_16 m
  · exact dyn_made oc _ _ (ur20_4ai_ui_16_diag.from_eq oc param)
      fun m _ => ur20_4ai_ui_16_diag.dyn_eq oc m
  · exact dyn_made oc _ _ (ur20_ai_ui_generic.from_eq oc .UR20_4AI_UI_12 param)
      fun m _ => ur20_ai_ui_generic.dyn_eq oc .UR20_4AI_UI_12 m
  · exact dyn_made oc _ _ (ur20_8ai_i_16_diag_hd.from_eq oc param)
      fun m _ => ur20_8ai_i_16_diag_hd.dyn_eq oc m
  · exact dyn_made oc _ _ (ur20_4ao_ui_16.from_eq oc param)
      fun m _ => ur20_4ao_ui_16.dyn_eq oc m
  · exact dyn_made oc _ _ (ur20_4ao_ui_16_diag.from_eq oc param)
      fun m _ => ur20_4ao_ui_16_diag.dyn_eq oc m
  · exact dyn_made oc _ _ (ur20_2fcnt_100.from_eq oc param)
      fun m _ => ur20_2fcnt_100.dyn_eq oc m
  · exact dyn_made oc _ _ (ur20_1com_232_485_422.from_eq oc param)
      fun m _ => ur20_1com_232_485_422.dyn_eq oc m
  · exact dyn_made oc _ _ (ur20_4ai_rtd_diag.from_eq oc param)
      fun m _ => ur20_4ai_rtd_diag.dyn_eq oc m
  · exact dyn_made oc _ _ (ur20_4ai_tc_diag.from_eq oc param)
      fun m h => ur20_4ai_tc_diag.dyn_eq oc m (ur20_4ai_tc_diag.from_length h)
  · rw [← ur20_pf_o_1di_sil.from_eq oc param]
    cases ur20_pf_o_1di_sil.Mod.from_modbus_parameter_data oc param with
    | ok m => simp only [Res.map_ok, ur20_pf_o_1di_sil.dyn_eq]
    | err e => rfl
    | panic => rfl

/-- C135: making a module from parameter registers has the same outcome in the translated source and
in the model, for every module type and all registers, and then the methods of both agree on all
register data and channel values. -/
theorem C135_methods (oc : Bool) (t : ModuleType) (param : List Word) :
    match Module.create t param with
    | .ok m => ∃ d, Spec.Src.create oc t param = .ok d ∧ Spec.Src.SameMethods d m
    | .err e => Spec.Src.create oc t param = .err e
    | .panic => Spec.Src.create oc t param = .panic := by
  rw [Src.create_eq]
  cases Module.create t param with
  | ok m => exact ⟨_, rfl, rfl, rfl, rfl, fun _ => rfl, fun _ => rfl, fun _ => rfl⟩
  | err e => rfl
  | panic => rfl

/-- C135: the parameters that an application reads from a module made from registers are those of
the model, or both fail in the same way. -/
theorem C135_parameters (oc : Bool) (data : List Word) :
    (∀ v : Di.Variant, (ur20_di_generic.Mod.from_modbus_parameter_data oc v.moduleType data).map (·.conv v) =
        Di.fromModbusParameterData v data) ∧
    (∀ v : Do.Variant, (ur20_do_generic.Mod.from_modbus_parameter_data oc v.moduleType data).map (·.conv v) =
        Do.fromModbusParameterData v data) ∧
    (∀ v : Ai.Variant, (ur20_ai_ui_generic.Mod.from_modbus_parameter_data oc v.moduleType data).map (·.conv v) =
        Ai.fromModbusParameterData v data) ∧
    (ur20_4ro_co_255.Mod.from_modbus_parameter_data oc data).map (·.conv) =
        Ro.fromModbusParameterData data ∧
    (ur20_4ao_ui_16.Mod.from_modbus_parameter_data oc data).map (·.conv) =
        Ao.fromModbusParameterData data ∧
    (ur20_4ao_ui_16_diag.Mod.from_modbus_parameter_data oc data).map (·.conv) =
        AoDiag.fromModbusParameterData data ∧
    (ur20_4ai_ui_16_diag.Mod.from_modbus_parameter_data oc data).map (·.conv) =
        AiDiag.fromModbusParameterData data ∧
    (ur20_8ai_i_16_diag_hd.Mod.from_modbus_parameter_data oc data).map (·.conv) =
        AiI.fromModbusParameterData data ∧
    (ur20_4ai_rtd_diag.Mod.from_modbus_parameter_data oc data).map (·.conv) =
        Rtd.fromModbusParameterData data ∧
    (ur20_4ai_tc_diag.Mod.from_modbus_parameter_data oc data).map (·.conv) =
        Tc.fromModbusParameterData data ∧
    (ur20_2fcnt_100.Mod.from_modbus_parameter_data oc data).map (·.conv) =
        Fcnt.fromModbusParameterData data ∧
    (ur20_1com_232_485_422.Mod.from_modbus_parameter_data oc data).map (·.conv) =
        Com.fromModbusParameterData data :=
  ⟨fun v => ur20_di_generic.from_eq oc v data,
    fun v => ur20_do_generic.from_eq oc v data,
    fun v => ur20_ai_ui_generic.from_eq oc v data,
    ur20_4ro_co_255.from_eq oc data,
    ur20_4ao_ui_16.from_eq oc data,
    ur20_4ao_ui_16_diag.from_eq oc data,
    ur20_4ai_ui_16_diag.from_eq oc data,
    ur20_8ai_i_16_diag_hd.from_eq oc data,
    ur20_4ai_rtd_diag.from_eq oc data,
    ur20_4ai_tc_diag.from_eq oc data,
    ur20_2fcnt_100.from_eq oc data,
    ur20_1com_232_485_422.from_eq oc data⟩

/-- C135: `Default` gives the parameters of the model. -/
theorem C135_defaults (oc : Bool) :
    (∀ v : Di.Variant, (ur20_di_generic.Mod.default oc v.moduleType).map (·.conv v) = .ok (Di.Mod.default v)) ∧
    (∀ v : Do.Variant, (ur20_do_generic.Mod.default oc v.moduleType).map (·.conv v) = .ok (Do.Mod.default v)) ∧
    (∀ v : Ai.Variant, (ur20_ai_ui_generic.Mod.default oc v.moduleType).map (·.conv v) = .ok (Ai.Mod.default v)) ∧
    (ur20_4ro_co_255.Mod.default oc).map (·.conv) = .ok Ro.Mod.default ∧
    (ur20_4ao_ui_16.Mod.default oc).map (·.conv) = .ok Ao.Mod.default ∧
    (ur20_4ao_ui_16_diag.Mod.default oc).map (·.conv) = .ok AoDiag.Mod.default ∧
    (ur20_4ai_ui_16_diag.Mod.default oc).map (·.conv) = .ok AiDiag.Mod.default ∧
    (ur20_8ai_i_16_diag_hd.Mod.default oc).map (·.conv) = .ok AiI.Mod.default ∧
    (ur20_4ai_rtd_diag.Mod.default oc).map (·.conv) = .ok Rtd.Mod.default ∧
    (ur20_4ai_tc_diag.Mod.default oc).map (·.conv) = .ok Tc.Mod.default ∧
    (ur20_2fcnt_100.Mod.default oc).map (·.conv) = .ok Fcnt.Mod.default ∧
    (ur20_1com_232_485_422.Mod.default oc).map (·.conv) = .ok Com.Mod.default :=
  ⟨ur20_di_generic.default_eq oc,
    ur20_do_generic.default_eq oc,
    ur20_ai_ui_generic.default_eq oc,
    ur20_4ro_co_255.default_eq oc,
    ur20_4ao_ui_16.default_eq oc,
    ur20_4ao_ui_16_diag.default_eq oc,
    ur20_4ai_ui_16_diag.default_eq oc,
    ur20_8ai_i_16_diag_hd.default_eq oc,
    ur20_4ai_rtd_diag.default_eq oc,
    ur20_4ai_tc_diag.default_eq oc,
    ur20_2fcnt_100.default_eq oc,
    ur20_1com_232_485_422.default_eq oc⟩

/-- C135: a counter input shows the frequency of the model. A `Duration` has less than `2 ^ 64`
seconds. -/
theorem C135_hertz (oc : Bool) (v : FcntIn)
    (h : ∀ d, v.duration = some d → d / 1000000000 < 2 ^ 64) :
    ur20_2fcnt_100.ProcessInput.hertz oc v = .ok (Fcnt.hertz v) := ur20_2fcnt_100.hertz_eq oc v h

/-- A serial module is made from its registers, and a digital input module fails on registers with an
unknown code. -/
example : (∃ m, Module.create .UR20_1COM_232_485_422 (List.replicate 10 0#16) = .ok m) ∧
    Module.create .UR20_4DI_P [0#16, 9#16, 0#16, 0#16] = .err .channelParameter := by
  exact ⟨⟨_, rfl⟩, rfl⟩

/-- A counter that ran for two seconds. -/
example : ∀ d,
    (⟨some 2000000000, 5#32, true⟩ : FcntIn).duration = some d → d / 1000000000 < 2 ^ 64 := by
  intro d h
  cases h
  decide

end Ur20
