import Verif.Spec.Names

/-!
# Specification: what the catalogue says about a module type

The ids the modules report, and what can be read off the name of a module: the number of channels
and the kind of module.
-/

namespace Ur20.Spec

/-- The id every module type reports in the module list, ordered by id; the plain power feeds do
not appear in the list. -/
def moduleId : ModuleType → Option Nat
  | .UR20_4DI_N => some 0x00011F84
  | .UR20_8DI_N_3W => some 0x00021FC1
  | .UR20_8DI_P_3W_HD => some 0x00031FC1
  | .UR20_16DI_P => some 0x00049FC2
  | .UR20_16DI_P_PLC_INT => some 0x00059FC2
  | .UR20_4DI_P => some 0x00091F84
  | .UR20_8DI_P_3W => some 0x000A1FC1
  | .UR20_16DI_N => some 0x000C9FC2
  | .UR20_16DI_N_PLC_INT => some 0x000D9FC2
  | .UR20_8DI_P_2W => some 0x00131FC1
  | .UR20_4DI_2W_230V_AC => some 0x00169F84
  | .UR20_4DI_P_3W => some 0x001B1F84
  | .UR20_4DO_P => some 0x01012FA0
  | .UR20_8DO_P => some 0x01022FC8
  | .UR20_16DO_P => some 0x0103AFD0
  | .UR20_16DO_P_PLC_INT => some 0x0104AFD0
  | .UR20_4DO_P_2A => some 0x01052FA0
  | .UR20_4RO_CO_255 => some 0x01062FA0
  | .UR20_4RO_SSR_255 => some 0x01072FA0
  | .UR20_4DO_N => some 0x010A2FA0
  | .UR20_4DO_N_2A => some 0x010B2FA0
  | .UR20_8DO_N => some 0x010C2FC8
  | .UR20_16DO_N => some 0x010DAFD0
  | .UR20_16DO_N_PLC_INT => some 0x010EAFD0
  | .UR20_4DO_PN_2A => some 0x01152FC8
  | .UR20_8DO_P_2W_HD => some 0x01192FC8
  | .UR20_4AI_UI_16 => some 0x040115C4
  | .UR20_4AI_UI_16_DIAG => some 0x04021544
  | .UR20_8AI_I_16_HD => some 0x040415C5
  | .UR20_8AI_I_16_DIAG_HD => some 0x04051545
  | .UR20_4AI_RTD_DIAG => some 0x04061544
  | .UR20_4AI_TC_DIAG => some 0x04071544
  | .UR20_8AI_I_PLC_INT => some 0x040915C5
  | .UR20_4AI_UI_12 => some 0x041115C4
  | .UR20_4AI_UI_16_HD => some 0x041315C4
  | .UR20_4AI_UI_16_DIAG_HD => some 0x04141544
  | .UR20_3EM_230V_AC => some 0x0418356D
  | .UR20_2AI_SG_24_DIAG => some 0x041B356D
  | .UR20_4AI_R_HS_16_DIAG => some 0x041C1544
  | .UR20_4AI_UI_DIF_16_DIAG => some 0x041E1544
  | .UR20_4AO_UI_16_DIAG => some 0x05012560
  | .UR20_4AO_UI_16 => some 0x050225E0
  | .UR20_4AO_UI_16_DIAG_HD => some 0x05032560
  | .UR20_4AO_UI_16_HD => some 0x050425E0
  | .UR20_4AO_UI_16_M_DIAG => some 0x05052560
  | .UR20_4AO_UI_16_M => some 0x050625E0
  | .UR20_2FCNT_100 => some 0x088128EE
  | .UR20_1CNT_100_1DO => some 0x08C13800
  | .UR20_2CNT_100 => some 0x08C33800
  | .UR20_1CNT_500 => some 0x08C43801
  | .UR20_2PWM_PN_0_5A => some 0x09084880
  | .UR20_2PWM_PN_2A => some 0x09094880
  | .UR20_1SSI => some 0x09C17880
  | .UR20_1COM_SAI_PRO => some 0x0BC1E800
  | .UR20_1COM_232_485_422 => some 0x0E413FED
  | .UR20_4COM_IO_LINK => some 0x0E81276D
  | .UR20_2DI_P_TS => some 0x0F014700
  | .UR20_4DI_P_TS => some 0x0F024700
  | .UR20_PF_O_1DI_SIL => some 0x18019F43
  | .UR20_PF_O_2DI_DELAY_SIL => some 0x18029F43
  | .UR20_PF_O_2DI_SIL => some 0x18039F43
  | .UR20_PF_I | .UR20_PF_O => none

/-- The parts of a name between the underscores. -/
def parts (s : List Char) : List (List Char) :=
  s.foldr (fun c acc => if c = '_' then [] :: acc else
    match acc with
    | [] => [[c]]
    | p :: ps => (c :: p) :: ps) [[]]

/-- The value of decimal digits. -/
def number (s : List Char) : Nat := s.foldl (fun n c => 10 * n + (c.toNat - '0'.toNat)) 0

/-- The part of the name after `UR20_`: digits followed by letters, as in `16DI` and `PF`. -/
def kindPart (t : ModuleType) : List Char := ((parts (typeName t).toList)[1]?).getD []

/-- The digits at the start of the part after `UR20_`; no digits are zero. -/
def namedChannels (t : ModuleType) : Nat := number ((kindPart t).takeWhile Char.isDigit)

/-- The letters after these digits. -/
def namedKind (t : ModuleType) : String := String.ofList ((kindPart t).dropWhile Char.isDigit)

/-- The part of the name after that, as in `UR20_4AI_RTD_DIAG`. -/
def namedVariant (t : ModuleType) : String :=
  String.ofList (((parts (typeName t).toList)[2]?).getD [])

/-- The category for each kind. Relay outputs are digital outputs, the energy meter is an analog
input, counters for frequencies are counters, and encoder interfaces communicate. Analog inputs for
resistance thermometers and thermocouples have categories of their own. -/
def kindCategory (kind variant : String) : Option ModuleCategory :=
  if kind = "DI" then some .DI
  else if kind = "DO" ∨ kind = "RO" then some .DO
  else if kind = "AI" then
    some (if variant = "RTD" then .RTD else if variant = "TC" then .TC else .AI)
  else if kind = "EM" then some .AI
  else if kind = "AO" then some .AO
  else if kind = "CNT" ∨ kind = "FCNT" then some .CNT
  else if kind = "PWM" then some .PWM
  else if kind = "COM" ∨ kind = "SSI" then some .COM
  else if kind = "PF" then some .PF
  else none

end Ur20.Spec
