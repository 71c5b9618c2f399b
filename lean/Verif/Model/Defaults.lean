import Verif.Model.Coupler

/-!
# Default modules: the `Default` implementations of the module types
-/

namespace Ur20

namespace Di

/-- `ChannelParameters::default`, `src/ur20_di_generic.rs:53-59`. -/
def ChannelParameters.default : ChannelParameters := ⟨.ms3⟩

/-- `Mod::default`, `src/ur20_di_generic.rs:61-71`. -/
def Mod.default (v : Variant) : Mod :=
  ⟨v, (List.range v.moduleType.channelCount).map fun _ => ChannelParameters.default⟩

end Di

namespace Do

/-- The derived `ChannelParameters::default`, `src/ur20_do_generic.rs:38-41` and
`src/ur20_4ro_co_255.rs:12-15`. -/
def ChannelParameters.default : ChannelParameters := ⟨false⟩

/-- `Mod::default`, `src/ur20_do_generic.rs:53-60`. -/
def Mod.default (v : Variant) : Mod :=
  ⟨v, List.replicate v.moduleType.channelCount ChannelParameters.default⟩

end Do

namespace Ro

/-- `Mod::default`, `src/ur20_4ro_co_255.rs:24-29`. -/
def Mod.default : Mod := ⟨(List.range 4).map fun _ => Do.ChannelParameters.default⟩

end Ro

namespace Ao

/-- `ChannelParameters::default`, `src/ur20_4ao_ui_16.rs:26-34`. -/
def ChannelParameters.default : ChannelParameters := ⟨.S7, .Disabled, F32.lit 0⟩

/-- `Mod::default`, `src/ur20_4ao_ui_16.rs:36-41`. -/
def Mod.default : Mod := ⟨(List.range 4).map fun _ => ChannelParameters.default⟩

end Ao

namespace AoDiag

/-- `ChannelParameters::default`, `src/ur20_4ao_ui_16_diag.rs:27-36`. -/
def ChannelParameters.default : ChannelParameters := ⟨.S7, .Disabled, F32.lit 0, false⟩

/-- `Mod::default`, `src/ur20_4ao_ui_16_diag.rs:38-43`. -/
def Mod.default : Mod := ⟨(List.range 4).map fun _ => ChannelParameters.default⟩

end AoDiag

namespace Ai

/-- `ChannelParameters::default`, `src/ur20_ai_ui_generic.rs:72-79`. -/
def ChannelParameters.default : ChannelParameters := ⟨.S7, .Disabled⟩

/-- `ModuleParameters::default` and `Mod::default`, `src/ur20_ai_ui_generic.rs:64-70`, `:81-92`. -/
def Mod.default (v : Variant) : Mod :=
  ⟨v, .Disabled, (List.range v.moduleType.channelCount).map fun _ => ChannelParameters.default⟩

end Ai

namespace AiDiag

/-- `ChannelParameters::default`, `src/ur20_4ai_ui_16_diag.rs:45-55`. -/
def ChannelParameters.default : ChannelParameters := ⟨false, false, false, .S7, .Disabled⟩

/-- `ModuleParameters::default` and `Mod::default`, `src/ur20_4ai_ui_16_diag.rs:37-43`, `:57-66`. -/
def Mod.default : Mod := ⟨.Disabled, (List.range 4).map fun _ => ChannelParameters.default⟩

end AiDiag

namespace AiI

/-- `ChannelParameters::default`, `src/ur20_8ai_i_16_diag_hd.rs:44-53`. -/
def ChannelParameters.default : ChannelParameters := ⟨false, false, .S7, .Disabled⟩

/-- `ModuleParameters::default` and `Mod::default`, `src/ur20_8ai_i_16_diag_hd.rs:36-42`,
`:55-66`. -/
def Mod.default : Mod := ⟨.Disabled, (List.range 8).map fun _ => ChannelParameters.default⟩

end AiI

namespace Rtd

/-- `ChannelParameters::default`, `src/ur20_4ai_rtd_diag.rs:49-61`. -/
def ChannelParameters.default : ChannelParameters := ⟨.Disabled, .TwoWire, .ms80, false, false, 0, 0⟩

/-- `ModuleParameters::default` and `Mod::default`, `src/ur20_4ai_rtd_diag.rs:41-47`, `:63-74`. -/
def Mod.default : Mod := ⟨.Celsius, (List.range 4).map fun _ => ChannelParameters.default⟩

end Rtd

namespace Tc

/-- `ChannelParameters::default`, `src/ur20_4ai_tc_diag.rs:101-113`. -/
def ChannelParameters.default : ChannelParameters :=
  ⟨.Disabled, .Internal, .ms80, false, false, 32767, -32768⟩

/-- `ModuleParameters::default` and the derived `Mod::default`, `src/ur20_4ai_tc_diag.rs:12-16`,
`:93-99`. -/
def Mod.default : Mod := ⟨.Celsius, Vector.replicate 4 ChannelParameters.default⟩

end Tc

namespace Fcnt

/-- `ChannelParameters::default`, `src/ur20_2fcnt_100.rs:65-71`. -/
def ChannelParameters.default : ChannelParameters := ⟨.us5⟩

/-- `Mod::default`, `src/ur20_2fcnt_100.rs:94-99`. -/
def Mod.default : Mod := ⟨(List.range 2).map fun _ => ChannelParameters.default⟩

end Fcnt

/-- `ProcessOutput::default`, `src/ur20_2fcnt_100.rs:73-80`. -/
def FcntOut.default : FcntOut := ⟨0, none⟩

namespace Com

/-- `ChannelParameters::default`, `src/ur20_1com_232_485_422.rs:285-299`. -/
def ChannelParameters.default : ChannelParameters :=
  { operatingMode := .Disabled
    dataBits := .EightBits
    baudRate := .Baud_9600
    stopBit := .OneBit
    parity := .None
    flowControl := .None
    xonChar := 17#8
    xoffChar := 19#8
    terminatingResistor := false }

/-- `ModuleParameters::default` and `Mod::default`, `src/ur20_1com_232_485_422.rs:277-283`,
`:301-308`. -/
def Mod.default : Mod := ⟨.SixteenBytes, [ChannelParameters.default]⟩

end Com

/-- The default module of each type with a module: the definitions above, `src/ur20_16do_p.rs:19-23`
and the derived `Default` of `src/ur20_pf_o_1di_sil.rs:9-10`. -/
def Module.default? : ModuleType → Option Module
  | .UR20_4DI_P => some (.di (Di.Mod.default .UR20_4DI_P))
  | .UR20_8DI_P_2W => some (.di (Di.Mod.default .UR20_8DI_P_2W))
  | .UR20_4DO_P => some (.dout (Do.Mod.default .UR20_4DO_P))
  | .UR20_4DO_P_2A => some (.dout (Do.Mod.default .UR20_4DO_P_2A))
  | .UR20_8DO_P => some (.dout (Do.Mod.default .UR20_8DO_P))
  | .UR20_16DO_P => some .do16
  | .UR20_4RO_CO_255 => some (.ro Ro.Mod.default)
  | .UR20_4AO_UI_16 => some (.ao Ao.Mod.default)
  | .UR20_4AO_UI_16_DIAG => some (.aoDiag AoDiag.Mod.default)
  | .UR20_4AI_RTD_DIAG => some (.rtd Rtd.Mod.default)
  | .UR20_4AI_UI_16_DIAG => some (.aiDiag AiDiag.Mod.default)
  | .UR20_4AI_UI_12 => some (.ai (Ai.Mod.default .UR20_4AI_UI_12))
  | .UR20_4AI_UI_16 => some (.ai (Ai.Mod.default .UR20_4AI_UI_16))
  | .UR20_8AI_I_16_DIAG_HD => some (.aiI AiI.Mod.default)
  | .UR20_4AI_TC_DIAG => some (.tc Tc.Mod.default)
  | .UR20_2FCNT_100 => some (.fcnt Fcnt.Mod.default)
  | .UR20_1COM_232_485_422 => some (.com Com.Mod.default)
  | .UR20_PF_O_1DI_SIL => some .sil
  | _ => none

end Ur20
