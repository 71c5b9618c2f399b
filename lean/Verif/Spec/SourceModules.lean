import Verif.Source.Ur20_fbc_mod_tcp

/-!
# Specification: the modules of the translated source
-/

namespace Ur20.Spec

open Ur20.Src

/-- A module as `Coupler::new` makes it from its parameter registers, with the translated functions,
`src/ur20_fbc_mod_tcp.rs:112-198`. -/
def Src.create (oc : Bool) (t : ModuleType) (param : List Word) : Res Dyn :=
  match t with
  | .UR20_4DI_P =>
    (ur20_di_generic.Mod.from_modbus_parameter_data oc .UR20_4DI_P param).map (ToDyn.toDyn oc)
  | .UR20_8DI_P_2W =>
    (ur20_di_generic.Mod.from_modbus_parameter_data oc .UR20_8DI_P_2W param).map (ToDyn.toDyn oc)
  | .UR20_4DO_P =>
    (ur20_do_generic.Mod.from_modbus_parameter_data oc .UR20_4DO_P param).map (ToDyn.toDyn oc)
  | .UR20_4DO_P_2A =>
    (ur20_do_generic.Mod.from_modbus_parameter_data oc .UR20_4DO_P_2A param).map (ToDyn.toDyn oc)
  | .UR20_8DO_P =>
    (ur20_do_generic.Mod.from_modbus_parameter_data oc .UR20_8DO_P param).map (ToDyn.toDyn oc)
  | .UR20_16DO_P =>
    (ur20_16do_p.Mod.from_modbus_parameter_data oc param).map (ToDyn.toDyn oc)
  | .UR20_4RO_CO_255 =>
    (ur20_4ro_co_255.Mod.from_modbus_parameter_data oc param).map (ToDyn.toDyn oc)
  | .UR20_4AO_UI_16 =>
    (ur20_4ao_ui_16.Mod.from_modbus_parameter_data oc param).map (ToDyn.toDyn oc)
  | .UR20_4AO_UI_16_DIAG =>
    (ur20_4ao_ui_16_diag.Mod.from_modbus_parameter_data oc param).map (ToDyn.toDyn oc)
  | .UR20_4AI_RTD_DIAG =>
    (ur20_4ai_rtd_diag.Mod.from_modbus_parameter_data oc param).map (ToDyn.toDyn oc)
  | .UR20_4AI_UI_16_DIAG =>
    (ur20_4ai_ui_16_diag.Mod.from_modbus_parameter_data oc param).map (ToDyn.toDyn oc)
  | .UR20_4AI_UI_12 =>
    (ur20_ai_ui_generic.Mod.from_modbus_parameter_data oc .UR20_4AI_UI_12 param).map (ToDyn.toDyn oc)
  | .UR20_4AI_UI_16 =>
    (ur20_ai_ui_generic.Mod.from_modbus_parameter_data oc .UR20_4AI_UI_16 param).map (ToDyn.toDyn oc)
  | .UR20_8AI_I_16_DIAG_HD =>
    (ur20_8ai_i_16_diag_hd.Mod.from_modbus_parameter_data oc param).map (ToDyn.toDyn oc)
  | .UR20_4AI_TC_DIAG =>
    (ur20_4ai_tc_diag.Mod.from_modbus_parameter_data oc param).map (ToDyn.toDyn oc)
  | .UR20_2FCNT_100 =>
    (ur20_2fcnt_100.Mod.from_modbus_parameter_data oc param).map (ToDyn.toDyn oc)
  | .UR20_1COM_232_485_422 =>
    (ur20_1com_232_485_422.Mod.from_modbus_parameter_data oc param).map (ToDyn.toDyn oc)
  | .UR20_PF_O_1DI_SIL =>
    (ur20_pf_o_1di_sil.Mod.from_modbus_parameter_data oc param).map (ToDyn.toDyn oc)
  | _ => .panic

/-- The methods of a module of the translated source do what those of the module of the model do. -/
structure Src.SameMethods (d : Dyn) (m : Module) : Prop where
  moduleType : d.module_type = .ok m.moduleType
  inputBytes : d.process_input_byte_count = .ok m.inputByteCount
  outputBytes : d.process_output_byte_count = .ok m.outputByteCount
  input : ∀ data, d.process_input_data data = m.processInputData data
  output : ∀ data, d.process_output_data data = m.processOutputData data
  values : ∀ values, d.process_output_values values = m.processOutputValues values

end Ur20.Spec
