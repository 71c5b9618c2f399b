import Verif.Model.Outcome

/-!
# Module types, categories and parameter codes (`src/lib.rs`)
-/

namespace Ur20

/-- `ModuleType`, `src/lib.rs:112-195`. -/
inductive ModuleType where
  | UR20_4DI_P
  | UR20_4DI_P_3W
  | UR20_8DI_P_2W
  | UR20_8DI_P_3W
  | UR20_8DI_P_3W_HD
  | UR20_16DI_P
  | UR20_16DI_P_PLC_INT
  | UR20_2DI_P_TS
  | UR20_4DI_P_TS
  | UR20_4DI_N
  | UR20_8DI_N_3W
  | UR20_16DI_N
  | UR20_16DI_N_PLC_INT
  | UR20_4DI_2W_230V_AC
  | UR20_4DO_P
  | UR20_4DO_P_2A
  | UR20_4DO_PN_2A
  | UR20_8DO_P
  | UR20_8DO_P_2W_HD
  | UR20_16DO_P
  | UR20_16DO_P_PLC_INT
  | UR20_4DO_N
  | UR20_4DO_N_2A
  | UR20_8DO_N
  | UR20_16DO_N
  | UR20_16DO_N_PLC_INT
  | UR20_4RO_SSR_255
  | UR20_4RO_CO_255
  | UR20_2PWM_PN_0_5A
  | UR20_2PWM_PN_2A
  | UR20_4AI_UI_16
  | UR20_4AI_UI_16_DIAG
  | UR20_4AI_UI_DIF_16_DIAG
  | UR20_4AI_UI_16_HD
  | UR20_4AI_UI_16_DIAG_HD
  | UR20_4AI_UI_12
  | UR20_8AI_I_16_HD
  | UR20_8AI_I_16_DIAG_HD
  | UR20_8AI_I_PLC_INT
  | UR20_4AI_R_HS_16_DIAG
  | UR20_2AI_SG_24_DIAG
  | UR20_3EM_230V_AC
  | UR20_4AO_UI_16
  | UR20_4AO_UI_16_M
  | UR20_4AO_UI_16_DIAG
  | UR20_4AO_UI_16_M_DIAG
  | UR20_4AO_UI_16_HD
  | UR20_4AO_UI_16_DIAG_HD
  | UR20_1CNT_100_1DO
  | UR20_2CNT_100
  | UR20_1CNT_500
  | UR20_2FCNT_100
  | UR20_1SSI
  | UR20_1COM_232_485_422
  | UR20_1COM_SAI_PRO
  | UR20_4COM_IO_LINK
  | UR20_4AI_RTD_DIAG
  | UR20_4AI_TC_DIAG
  | UR20_PF_I
  | UR20_PF_O
  | UR20_PF_O_1DI_SIL
  | UR20_PF_O_2DI_SIL
  | UR20_PF_O_2DI_DELAY_SIL
  deriving DecidableEq, Repr

/-- `ModuleCategory`, `src/lib.rs:84-107`. -/
inductive ModuleCategory where
  | DI | DO | AI | AO | CNT | PWM | RTD | TC | COM | RO | PF
  deriving DecidableEq, Repr

namespace ModuleType

/-- The arms of the `match` in `try_from_u32`, `src/lib.rs:378-448`, in source order. -/
def idTable : List (Nat × ModuleType) := [
  (0x00091F84, UR20_4DI_P),
  (0x001B1F84, UR20_4DI_P_3W),
  (0x00131FC1, UR20_8DI_P_2W),
  (0x000A1FC1, UR20_8DI_P_3W),
  (0x00031FC1, UR20_8DI_P_3W_HD),
  (0x00049FC2, UR20_16DI_P),
  (0x00059FC2, UR20_16DI_P_PLC_INT),
  (0x0F014700, UR20_2DI_P_TS),
  (0x0F024700, UR20_4DI_P_TS),
  (0x00011F84, UR20_4DI_N),
  (0x00021FC1, UR20_8DI_N_3W),
  (0x000C9FC2, UR20_16DI_N),
  (0x000D9FC2, UR20_16DI_N_PLC_INT),
  (0x00169F84, UR20_4DI_2W_230V_AC),
  (0x01012FA0, UR20_4DO_P),
  (0x01052FA0, UR20_4DO_P_2A),
  (0x01152FC8, UR20_4DO_PN_2A),
  (0x01022FC8, UR20_8DO_P),
  (0x01192FC8, UR20_8DO_P_2W_HD),
  (0x0103AFD0, UR20_16DO_P),
  (0x0104AFD0, UR20_16DO_P_PLC_INT),
  (0x010A2FA0, UR20_4DO_N),
  (0x010B2FA0, UR20_4DO_N_2A),
  (0x010C2FC8, UR20_8DO_N),
  (0x010DAFD0, UR20_16DO_N),
  (0x010EAFD0, UR20_16DO_N_PLC_INT),
  (0x01072FA0, UR20_4RO_SSR_255),
  (0x01062FA0, UR20_4RO_CO_255),
  (0x09084880, UR20_2PWM_PN_0_5A),
  (0x09094880, UR20_2PWM_PN_2A),
  (0x040115C4, UR20_4AI_UI_16),
  (0x04021544, UR20_4AI_UI_16_DIAG),
  (0x041E1544, UR20_4AI_UI_DIF_16_DIAG),
  (0x041315C4, UR20_4AI_UI_16_HD),
  (0x04141544, UR20_4AI_UI_16_DIAG_HD),
  (0x041115C4, UR20_4AI_UI_12),
  (0x040415C5, UR20_8AI_I_16_HD),
  (0x04051545, UR20_8AI_I_16_DIAG_HD),
  (0x040915C5, UR20_8AI_I_PLC_INT),
  (0x041C1544, UR20_4AI_R_HS_16_DIAG),
  (0x041B356D, UR20_2AI_SG_24_DIAG),
  (0x0418356D, UR20_3EM_230V_AC),
  (0x050225E0, UR20_4AO_UI_16),
  (0x050625E0, UR20_4AO_UI_16_M),
  (0x05012560, UR20_4AO_UI_16_DIAG),
  (0x05052560, UR20_4AO_UI_16_M_DIAG),
  (0x050425E0, UR20_4AO_UI_16_HD),
  (0x05032560, UR20_4AO_UI_16_DIAG_HD),
  (0x08C13800, UR20_1CNT_100_1DO),
  (0x08C33800, UR20_2CNT_100),
  (0x08C43801, UR20_1CNT_500),
  (0x088128EE, UR20_2FCNT_100),
  (0x09C17880, UR20_1SSI),
  (0x0E413FED, UR20_1COM_232_485_422),
  (0x0BC1E800, UR20_1COM_SAI_PRO),
  (0x0E81276D, UR20_4COM_IO_LINK),
  (0x04061544, UR20_4AI_RTD_DIAG),
  (0x04071544, UR20_4AI_TC_DIAG),
  (0x18019F43, UR20_PF_O_1DI_SIL),
  (0x18039F43, UR20_PF_O_2DI_SIL),
  (0x18029F43, UR20_PF_O_2DI_DELAY_SIL)]

/-- `ModuleType::try_from_u32`, `src/lib.rs:375-454`: the first matching arm. -/
def tryFromU32 (id : BitVec 32) : Res ModuleType :=
  match idTable.find? (fun p => p.1 == id.toNat) with
  | some p => .ok p.2
  | none => .err .unknownModule

/-- `ModuleType::channel_count`, `src/lib.rs:459-532`. -/
def channelCount : ModuleType → Nat
  | .UR20_PF_I | .UR20_PF_O | .UR20_PF_O_1DI_SIL | .UR20_PF_O_2DI_SIL | .UR20_PF_O_2DI_DELAY_SIL => 0
  | .UR20_1CNT_100_1DO | .UR20_1CNT_500 | .UR20_1COM_232_485_422 | .UR20_1SSI | .UR20_1COM_SAI_PRO => 1
  | .UR20_2DI_P_TS | .UR20_2PWM_PN_0_5A | .UR20_2PWM_PN_2A | .UR20_2AI_SG_24_DIAG | .UR20_2CNT_100 | .UR20_2FCNT_100 => 2
  | .UR20_4DI_P | .UR20_4DI_P_3W | .UR20_4DI_P_TS | .UR20_4DI_N | .UR20_4DI_2W_230V_AC | .UR20_4DO_P | .UR20_4DO_P_2A | .UR20_4DO_PN_2A | .UR20_4DO_N | .UR20_4DO_N_2A | .UR20_4RO_SSR_255 | .UR20_4RO_CO_255 | .UR20_4AI_UI_16 | .UR20_4AI_UI_16_DIAG | .UR20_4AI_UI_DIF_16_DIAG | .UR20_4AI_UI_16_HD | .UR20_4AI_UI_16_DIAG_HD | .UR20_4AI_UI_12 | .UR20_4AI_R_HS_16_DIAG | .UR20_4AO_UI_16 | .UR20_4AO_UI_16_M | .UR20_4AO_UI_16_DIAG | .UR20_4AO_UI_16_M_DIAG | .UR20_4AO_UI_16_HD | .UR20_4AO_UI_16_DIAG_HD | .UR20_4COM_IO_LINK | .UR20_4AI_RTD_DIAG | .UR20_4AI_TC_DIAG => 4
  | .UR20_8DI_P_2W | .UR20_8DI_P_3W | .UR20_8DI_P_3W_HD | .UR20_8DI_N_3W | .UR20_8DO_P | .UR20_8DO_P_2W_HD | .UR20_8DO_N | .UR20_8AI_I_16_HD | .UR20_8AI_I_16_DIAG_HD | .UR20_8AI_I_PLC_INT | .UR20_3EM_230V_AC => 8
  | .UR20_16DI_P | .UR20_16DI_P_PLC_INT | .UR20_16DI_N | .UR20_16DI_N_PLC_INT | .UR20_16DO_P | .UR20_16DO_P_PLC_INT | .UR20_16DO_N | .UR20_16DO_N_PLC_INT => 16

/-- The arms of the `match` in `ModuleType::from_str`, `src/lib.rs:540-612`, in source order. -/
def nameTable : List (String × ModuleType) := [
  ("UR20_4DI_P", UR20_4DI_P),
  ("UR20_4DI_P_3W", UR20_4DI_P_3W),
  ("UR20_8DI_P_2W", UR20_8DI_P_2W),
  ("UR20_8DI_P_3W", UR20_8DI_P_3W),
  ("UR20_8DI_P_3W_HD", UR20_8DI_P_3W_HD),
  ("UR20_16DI_P", UR20_16DI_P),
  ("UR20_16DI_P_PLC_INT", UR20_16DI_P_PLC_INT),
  ("UR20_2DI_P_TS", UR20_2DI_P_TS),
  ("UR20_4DI_P_TS", UR20_4DI_P_TS),
  ("UR20_4DI_N", UR20_4DI_N),
  ("UR20_8DI_N_3W", UR20_8DI_N_3W),
  ("UR20_16DI_N", UR20_16DI_N),
  ("UR20_16DI_N_PLC_INT", UR20_16DI_N_PLC_INT),
  ("UR20_4DI_2W_230V_AC", UR20_4DI_2W_230V_AC),
  ("UR20_4DO_P", UR20_4DO_P),
  ("UR20_4DO_P_2A", UR20_4DO_P_2A),
  ("UR20_4DO_PN_2A", UR20_4DO_PN_2A),
  ("UR20_8DO_P", UR20_8DO_P),
  ("UR20_8DO_P_2W_HD", UR20_8DO_P_2W_HD),
  ("UR20_16DO_P", UR20_16DO_P),
  ("UR20_16DO_P_PLC_INT", UR20_16DO_P_PLC_INT),
  ("UR20_4DO_N", UR20_4DO_N),
  ("UR20_4DO_N_2A", UR20_4DO_N_2A),
  ("UR20_8DO_N", UR20_8DO_N),
  ("UR20_16DO_N", UR20_16DO_N),
  ("UR20_16DO_N_PLC_INT", UR20_16DO_N_PLC_INT),
  ("UR20_4RO_SSR_255", UR20_4RO_SSR_255),
  ("UR20_4RO_CO_255", UR20_4RO_CO_255),
  ("UR20_2PWM_PN_0_5A", UR20_2PWM_PN_0_5A),
  ("UR20_2PWM_PN_2A", UR20_2PWM_PN_2A),
  ("UR20_4AI_UI_16", UR20_4AI_UI_16),
  ("UR20_4AI_UI_16_DIAG", UR20_4AI_UI_16_DIAG),
  ("UR20_4AI_UI_DIF_16_DIAG", UR20_4AI_UI_DIF_16_DIAG),
  ("UR20_4AI_UI_16_HD", UR20_4AI_UI_16_HD),
  ("UR20_4AI_UI_16_DIAG_HD", UR20_4AI_UI_16_DIAG_HD),
  ("UR20_4AI_UI_12", UR20_4AI_UI_12),
  ("UR20_8AI_I_16_HD", UR20_8AI_I_16_HD),
  ("UR20_8AI_I_16_DIAG_HD", UR20_8AI_I_16_DIAG_HD),
  ("UR20_8AI_I_PLC_INT", UR20_8AI_I_PLC_INT),
  ("UR20_4AI_R_HS_16_DIAG", UR20_4AI_R_HS_16_DIAG),
  ("UR20_2AI_SG_24_DIAG", UR20_2AI_SG_24_DIAG),
  ("UR20_3EM_230V_AC", UR20_3EM_230V_AC),
  ("UR20_4AO_UI_16", UR20_4AO_UI_16),
  ("UR20_4AO_UI_16_M", UR20_4AO_UI_16_M),
  ("UR20_4AO_UI_16_DIAG", UR20_4AO_UI_16_DIAG),
  ("UR20_4AO_UI_16_M_DIAG", UR20_4AO_UI_16_M_DIAG),
  ("UR20_4AO_UI_16_HD", UR20_4AO_UI_16_HD),
  ("UR20_4AO_UI_16_DIAG_HD", UR20_4AO_UI_16_DIAG_HD),
  ("UR20_1CNT_100_1DO", UR20_1CNT_100_1DO),
  ("UR20_2CNT_100", UR20_2CNT_100),
  ("UR20_1CNT_500", UR20_1CNT_500),
  ("UR20_2FCNT_100", UR20_2FCNT_100),
  ("UR20_1SSI", UR20_1SSI),
  ("UR20_1COM_232_485_422", UR20_1COM_232_485_422),
  ("UR20_1COM_SAI_PRO", UR20_1COM_SAI_PRO),
  ("UR20_4COM_IO_LINK", UR20_4COM_IO_LINK),
  ("UR20_4AI_RTD_DIAG", UR20_4AI_RTD_DIAG),
  ("UR20_4AI_TC_DIAG", UR20_4AI_TC_DIAG),
  ("UR20_PF_I", UR20_PF_I),
  ("UR20_PF_O", UR20_PF_O),
  ("UR20_PF_O_1DI_SIL", UR20_PF_O_1DI_SIL),
  ("UR20_PF_O_2DI_SIL", UR20_PF_O_2DI_SIL),
  ("UR20_PF_O_2DI_DELAY_SIL", UR20_PF_O_2DI_DELAY_SIL)]

/-- `s.to_uppercase().replace('-', "_")`, `src/lib.rs:540`. `up` stands for the Unicode upper
case mapping of one character (which may be several characters). Simplification: Rust's
`str::to_uppercase` has no context-dependent rule (only `to_lowercase` has), so it is
character-wise. -/
def normalise (up : Char → List Char) (s : String) : String :=
  String.ofList ((s.toList.flatMap up).map fun c => if c = '-' then '_' else c)

/-- `<ModuleType as FromStr>::from_str`, `src/lib.rs:536-620`. -/
def fromStr (up : Char → List Char) (s : String) : Res ModuleType :=
  match nameTable.find? (fun p => p.1 == normalise up s) with
  | some p => .ok p.2
  | none => .err .unknownModule

/-- `From<ModuleType> for ModuleCategory`, `src/lib.rs:647-725`. -/
def category : ModuleType → ModuleCategory
  | .UR20_4DI_P | .UR20_4DI_P_3W | .UR20_8DI_P_2W | .UR20_8DI_P_3W | .UR20_8DI_P_3W_HD | .UR20_16DI_P | .UR20_16DI_P_PLC_INT | .UR20_2DI_P_TS | .UR20_4DI_P_TS | .UR20_4DI_N | .UR20_8DI_N_3W | .UR20_16DI_N | .UR20_16DI_N_PLC_INT | .UR20_4DI_2W_230V_AC => .DI
  | .UR20_4DO_P | .UR20_4DO_P_2A | .UR20_4DO_PN_2A | .UR20_8DO_P | .UR20_8DO_P_2W_HD | .UR20_16DO_P | .UR20_16DO_P_PLC_INT | .UR20_4DO_N | .UR20_4DO_N_2A | .UR20_8DO_N | .UR20_16DO_N | .UR20_16DO_N_PLC_INT | .UR20_4RO_SSR_255 | .UR20_4RO_CO_255 => .DO
  | .UR20_2PWM_PN_0_5A | .UR20_2PWM_PN_2A => .PWM
  | .UR20_4AI_UI_16 | .UR20_4AI_UI_16_DIAG | .UR20_4AI_UI_DIF_16_DIAG | .UR20_4AI_UI_16_HD | .UR20_4AI_UI_16_DIAG_HD | .UR20_4AI_UI_12 | .UR20_8AI_I_16_HD | .UR20_8AI_I_16_DIAG_HD | .UR20_8AI_I_PLC_INT | .UR20_4AI_R_HS_16_DIAG | .UR20_2AI_SG_24_DIAG | .UR20_3EM_230V_AC => .AI
  | .UR20_4AO_UI_16 | .UR20_4AO_UI_16_M | .UR20_4AO_UI_16_DIAG | .UR20_4AO_UI_16_M_DIAG | .UR20_4AO_UI_16_HD | .UR20_4AO_UI_16_DIAG_HD => .AO
  | .UR20_1CNT_100_1DO | .UR20_2CNT_100 | .UR20_1CNT_500 | .UR20_2FCNT_100 => .CNT
  | .UR20_1SSI | .UR20_1COM_232_485_422 | .UR20_1COM_SAI_PRO | .UR20_4COM_IO_LINK => .COM
  | .UR20_4AI_RTD_DIAG => .RTD
  | .UR20_4AI_TC_DIAG => .TC
  | .UR20_PF_I | .UR20_PF_O | .UR20_PF_O_1DI_SIL | .UR20_PF_O_2DI_SIL | .UR20_PF_O_2DI_DELAY_SIL => .PF

end ModuleType

namespace ModuleCategory

/-- The arms of the `match` in `ModuleCategory::from_str`, `src/lib.rs:627-637`. -/
def nameTable : List (String × ModuleCategory) := [
  ("DI", DI), ("DO", DO), ("AI", AI), ("AO", AO), ("CNT", CNT), ("PWM", PWM), ("RTD", RTD),
  ("TC", TC), ("COM", COM), ("RO", RO)]

/-- `<ModuleCategory as FromStr>::from_str`, `src/lib.rs:623-644`. -/
def fromStr (up : Char → List Char) (s : String) : Res ModuleCategory :=
  match nameTable.find? (fun p => p.1 == String.ofList (s.toList.flatMap up)) with
  | some p => .ok p.2
  | none => .err .unknownCategory

end ModuleCategory

/-- `DataFormat`, `src/lib.rs:199-204`. -/
inductive DataFormat where
  | S5
  | S7
  deriving DecidableEq, Repr

/-- Derived `FromPrimitive::from_u16` for `DataFormat`: the variant with this discriminant. -/
def DataFormat.fromU16 (w : Word) : Option DataFormat :=
  match w.toNat with
  | 0 => some .S5
  | 1 => some .S7
  | _ => none

/-- Derived `ToPrimitive::to_u16` for `DataFormat`: the discriminant of the variant, which always fits
16 bits. -/
def DataFormat.toU16 : DataFormat → Option Word
  | .S5 => some 0
  | .S7 => some 1

/-- `AnalogUIRange`, `src/lib.rs:218-237`. -/
inductive AnalogUIRange where
  | mA0To20
  | mA4To20
  | V0To10
  | VMinus10To10
  | V0To5
  | VMinus5To5
  | V1To5
  | V2To10
  | Disabled
  deriving DecidableEq, Repr

/-- Derived `FromPrimitive::from_u16` for `AnalogUIRange`: the variant with this discriminant. -/
def AnalogUIRange.fromU16 (w : Word) : Option AnalogUIRange :=
  match w.toNat with
  | 0 => some .mA0To20
  | 1 => some .mA4To20
  | 2 => some .V0To10
  | 3 => some .VMinus10To10
  | 4 => some .V0To5
  | 5 => some .VMinus5To5
  | 6 => some .V1To5
  | 7 => some .V2To10
  | 8 => some .Disabled
  | _ => none

/-- Derived `ToPrimitive::to_u16` for `AnalogUIRange`: the discriminant of the variant, which always fits
16 bits. -/
def AnalogUIRange.toU16 : AnalogUIRange → Option Word
  | .mA0To20 => some 0
  | .mA4To20 => some 1
  | .V0To10 => some 2
  | .VMinus10To10 => some 3
  | .V0To5 => some 4
  | .VMinus5To5 => some 5
  | .V1To5 => some 6
  | .V2To10 => some 7
  | .Disabled => some 8

/-- `AnalogIRange`, `src/lib.rs:242-249`. -/
inductive AnalogIRange where
  | mA0To20
  | mA4To20
  | Disabled
  deriving DecidableEq, Repr

/-- Derived `FromPrimitive::from_u16` for `AnalogIRange`: the variant with this discriminant. -/
def AnalogIRange.fromU16 (w : Word) : Option AnalogIRange :=
  match w.toNat with
  | 0 => some .mA0To20
  | 1 => some .mA4To20
  | 2 => some .Disabled
  | _ => none

/-- Derived `ToPrimitive::to_u16` for `AnalogIRange`: the discriminant of the variant, which always fits
16 bits. -/
def AnalogIRange.toU16 : AnalogIRange → Option Word
  | .mA0To20 => some 0
  | .mA4To20 => some 1
  | .Disabled => some 2

/-- `RtdRange`, `src/lib.rs:253-292`. -/
inductive RtdRange where
  | PT100
  | PT200
  | PT500
  | PT1000
  | NI100
  | NI120
  | NI200
  | NI500
  | NI1000
  | Cu10
  | R40
  | R80
  | R150
  | R300
  | R500
  | R1000
  | R2000
  | R4000
  | Disabled
  deriving DecidableEq, Repr

/-- Derived `FromPrimitive::from_u16` for `RtdRange`: the variant with this discriminant. -/
def RtdRange.fromU16 (w : Word) : Option RtdRange :=
  match w.toNat with
  | 0 => some .PT100
  | 1 => some .PT200
  | 2 => some .PT500
  | 3 => some .PT1000
  | 4 => some .NI100
  | 5 => some .NI120
  | 6 => some .NI200
  | 7 => some .NI500
  | 8 => some .NI1000
  | 9 => some .Cu10
  | 10 => some .R40
  | 11 => some .R80
  | 12 => some .R150
  | 13 => some .R300
  | 14 => some .R500
  | 15 => some .R1000
  | 16 => some .R2000
  | 17 => some .R4000
  | 18 => some .Disabled
  | _ => none

/-- Derived `ToPrimitive::to_u16` for `RtdRange`: the discriminant of the variant, which always fits
16 bits. -/
def RtdRange.toU16 : RtdRange → Option Word
  | .PT100 => some 0
  | .PT200 => some 1
  | .PT500 => some 2
  | .PT1000 => some 3
  | .NI100 => some 4
  | .NI120 => some 5
  | .NI200 => some 6
  | .NI500 => some 7
  | .NI1000 => some 8
  | .Cu10 => some 9
  | .R40 => some 10
  | .R80 => some 11
  | .R150 => some 12
  | .R300 => some 13
  | .R500 => some 14
  | .R1000 => some 15
  | .R2000 => some 16
  | .R4000 => some 17
  | .Disabled => some 18

/-- `TemperatureUnit`, `src/lib.rs:298-302`. -/
inductive TemperatureUnit where
  | Celsius
  | Fahrenheit
  | Kelvin
  deriving DecidableEq, Repr

/-- Derived `FromPrimitive::from_u16` for `TemperatureUnit`: the variant with this discriminant. -/
def TemperatureUnit.fromU16 (w : Word) : Option TemperatureUnit :=
  match w.toNat with
  | 0 => some .Celsius
  | 1 => some .Fahrenheit
  | 2 => some .Kelvin
  | _ => none

/-- Derived `ToPrimitive::to_u16` for `TemperatureUnit`: the discriminant of the variant, which always fits
16 bits. -/
def TemperatureUnit.toU16 : TemperatureUnit → Option Word
  | .Celsius => some 0
  | .Fahrenheit => some 1
  | .Kelvin => some 2

/-- `ConnectionType`, `src/lib.rs:307-311`. -/
inductive ConnectionType where
  | TwoWire
  | ThreeWire
  | FourWire
  deriving DecidableEq, Repr

/-- Derived `FromPrimitive::from_u16` for `ConnectionType`: the variant with this discriminant. -/
def ConnectionType.fromU16 (w : Word) : Option ConnectionType :=
  match w.toNat with
  | 0 => some .TwoWire
  | 1 => some .ThreeWire
  | 2 => some .FourWire
  | _ => none

/-- Derived `ToPrimitive::to_u16` for `ConnectionType`: the discriminant of the variant, which always fits
16 bits. -/
def ConnectionType.toU16 : ConnectionType → Option Word
  | .TwoWire => some 0
  | .ThreeWire => some 1
  | .FourWire => some 2

/-- `ConversionTime`, `src/lib.rs:317-324`. -/
inductive ConversionTime where
  | ms240
  | ms130
  | ms80
  | ms55
  | ms43
  | ms36
  deriving DecidableEq, Repr

/-- Derived `FromPrimitive::from_u16` for `ConversionTime`: the variant with this discriminant. -/
def ConversionTime.fromU16 (w : Word) : Option ConversionTime :=
  match w.toNat with
  | 0 => some .ms240
  | 1 => some .ms130
  | 2 => some .ms80
  | 3 => some .ms55
  | 4 => some .ms43
  | 5 => some .ms36
  | _ => none

/-- Derived `ToPrimitive::to_u16` for `ConversionTime`: the discriminant of the variant, which always fits
16 bits. -/
def ConversionTime.toU16 : ConversionTime → Option Word
  | .ms240 => some 0
  | .ms130 => some 1
  | .ms80 => some 2
  | .ms55 => some 3
  | .ms43 => some 4
  | .ms36 => some 5

/-- `InputFilter`, `src/lib.rs:330-348`. -/
inductive InputFilter where
  | us5
  | us11
  | us21
  | us43
  | us83
  | us167
  | us333
  | us667
  | ms1
  | ms3
  | ms5
  | ms11
  | ms22
  | ms43
  | ms91
  | ms167
  | ms333
  deriving DecidableEq, Repr

/-- Derived `FromPrimitive::from_u16` for `InputFilter`: the variant with this discriminant. -/
def InputFilter.fromU16 (w : Word) : Option InputFilter :=
  match w.toNat with
  | 0 => some .us5
  | 1 => some .us11
  | 2 => some .us21
  | 3 => some .us43
  | 4 => some .us83
  | 5 => some .us167
  | 6 => some .us333
  | 7 => some .us667
  | 8 => some .ms1
  | 9 => some .ms3
  | 10 => some .ms5
  | 11 => some .ms11
  | 12 => some .ms22
  | 13 => some .ms43
  | 14 => some .ms91
  | 15 => some .ms167
  | 16 => some .ms333
  | _ => none

/-- Derived `ToPrimitive::to_u16` for `InputFilter`: the discriminant of the variant, which always fits
16 bits. -/
def InputFilter.toU16 : InputFilter → Option Word
  | .us5 => some 0
  | .us11 => some 1
  | .us21 => some 2
  | .us43 => some 3
  | .us83 => some 4
  | .us167 => some 5
  | .us333 => some 6
  | .us667 => some 7
  | .ms1 => some 8
  | .ms3 => some 9
  | .ms5 => some 10
  | .ms11 => some 11
  | .ms22 => some 12
  | .ms43 => some 13
  | .ms91 => some 14
  | .ms167 => some 15
  | .ms333 => some 16

/-- `InputDelay`, `src/lib.rs:354-361`. -/
inductive InputDelay where
  | no
  | us300
  | ms3
  | ms10
  | ms20
  | ms40
  deriving DecidableEq, Repr

/-- Derived `FromPrimitive::from_u16` for `InputDelay`: the variant with this discriminant. -/
def InputDelay.fromU16 (w : Word) : Option InputDelay :=
  match w.toNat with
  | 0 => some .no
  | 1 => some .us300
  | 2 => some .ms3
  | 3 => some .ms10
  | 4 => some .ms20
  | 5 => some .ms40
  | _ => none

/-- Derived `ToPrimitive::to_u16` for `InputDelay`: the discriminant of the variant, which always fits
16 bits. -/
def InputDelay.toU16 : InputDelay → Option Word
  | .no => some 0
  | .us300 => some 1
  | .ms3 => some 2
  | .ms10 => some 3
  | .ms20 => some 4
  | .ms40 => some 5

/-- `FrequencySuppression`, `src/lib.rs:367-372`. -/
inductive FrequencySuppression where
  | Disabled
  | Hz50
  | Hz60
  | Average16
  deriving DecidableEq, Repr

/-- Derived `FromPrimitive::from_u16` for `FrequencySuppression`: the variant with this discriminant. -/
def FrequencySuppression.fromU16 (w : Word) : Option FrequencySuppression :=
  match w.toNat with
  | 0 => some .Disabled
  | 1 => some .Hz50
  | 2 => some .Hz60
  | 3 => some .Average16
  | _ => none

/-- Derived `ToPrimitive::to_u16` for `FrequencySuppression`: the discriminant of the variant, which always fits
16 bits. -/
def FrequencySuppression.toU16 : FrequencySuppression → Option Word
  | .Disabled => some 0
  | .Hz50 => some 1
  | .Hz60 => some 2
  | .Average16 => some 3

/-- `TcRange`, `src/ur20_4ai_tc_diag.rs:49-81` (`MeasurementRange`). -/
inductive TcRange where
  | TC_Type_J
  | TC_Type_K
  | TC_Type_N
  | TC_Type_R
  | TC_Type_S
  | TC_Type_T
  | TC_Type_B
  | TC_Type_C
  | TC_Type_E
  | TC_Type_L
  | TC_Type_U
  | uVPlusMinus15625
  | uVPlusMinus31250
  | uVPlusMinus62500
  | mVPlusMinus125
  | mVPlusMinus250
  | mVPlusMinus500
  | VPlusMinus1
  | VPlusMinus2
  | Disabled
  deriving DecidableEq, Repr

/-- Derived `FromPrimitive::from_u16` for `TcRange`: the variant with this discriminant. -/
def TcRange.fromU16 (w : Word) : Option TcRange :=
  match w.toNat with
  | 0 => some .TC_Type_J
  | 1 => some .TC_Type_K
  | 2 => some .TC_Type_N
  | 3 => some .TC_Type_R
  | 4 => some .TC_Type_S
  | 5 => some .TC_Type_T
  | 6 => some .TC_Type_B
  | 7 => some .TC_Type_C
  | 8 => some .TC_Type_E
  | 9 => some .TC_Type_L
  | 10 => some .TC_Type_U
  | 11 => some .uVPlusMinus15625
  | 12 => some .uVPlusMinus31250
  | 13 => some .uVPlusMinus62500
  | 14 => some .mVPlusMinus125
  | 15 => some .mVPlusMinus250
  | 16 => some .mVPlusMinus500
  | 17 => some .VPlusMinus1
  | 18 => some .VPlusMinus2
  | 19 => some .Disabled
  | _ => none

/-- Derived `ToPrimitive::to_u16` for `TcRange`: the discriminant of the variant, which always fits
16 bits. -/
def TcRange.toU16 : TcRange → Option Word
  | .TC_Type_J => some 0
  | .TC_Type_K => some 1
  | .TC_Type_N => some 2
  | .TC_Type_R => some 3
  | .TC_Type_S => some 4
  | .TC_Type_T => some 5
  | .TC_Type_B => some 6
  | .TC_Type_C => some 7
  | .TC_Type_E => some 8
  | .TC_Type_L => some 9
  | .TC_Type_U => some 10
  | .uVPlusMinus15625 => some 11
  | .uVPlusMinus31250 => some 12
  | .uVPlusMinus62500 => some 13
  | .mVPlusMinus125 => some 14
  | .mVPlusMinus250 => some 15
  | .mVPlusMinus500 => some 16
  | .VPlusMinus1 => some 17
  | .VPlusMinus2 => some 18
  | .Disabled => some 19

/-- `ColdJunctionCompensation`, `src/ur20_4ai_tc_diag.rs:85-92`. -/
inductive ColdJunctionCompensation where
  | Internal
  | ExternalChannel0
  | ExternalChannel1
  | ExternalChannel2
  | ExternalChannel3
  deriving DecidableEq, Repr

/-- Derived `FromPrimitive::from_u16` for `ColdJunctionCompensation`: the variant with this discriminant. -/
def ColdJunctionCompensation.fromU16 (w : Word) : Option ColdJunctionCompensation :=
  match w.toNat with
  | 0 => some .Internal
  | 1 => some .ExternalChannel0
  | 2 => some .ExternalChannel1
  | 3 => some .ExternalChannel2
  | 4 => some .ExternalChannel3
  | _ => none

/-- Derived `ToPrimitive::to_u16` for `ColdJunctionCompensation`: the discriminant of the variant, which always fits
16 bits. -/
def ColdJunctionCompensation.toU16 : ColdJunctionCompensation → Option Word
  | .Internal => some 0
  | .ExternalChannel0 => some 1
  | .ExternalChannel1 => some 2
  | .ExternalChannel2 => some 3
  | .ExternalChannel3 => some 4

/-- `OperatingMode`, `src/ur20_1com_232_485_422.rs:94-99`. -/
inductive OperatingMode where
  | Disabled
  | RS232
  | RS485
  | RS422
  deriving DecidableEq, Repr

/-- Derived `FromPrimitive::from_u16` for `OperatingMode`: the variant with this discriminant. -/
def OperatingMode.fromU16 (w : Word) : Option OperatingMode :=
  match w.toNat with
  | 0 => some .Disabled
  | 1 => some .RS232
  | 2 => some .RS485
  | 3 => some .RS422
  | _ => none

/-- Derived `ToPrimitive::to_u16` for `OperatingMode`: the discriminant of the variant, which always fits
16 bits. -/
def OperatingMode.toU16 : OperatingMode → Option Word
  | .Disabled => some 0
  | .RS232 => some 1
  | .RS485 => some 2
  | .RS422 => some 3

/-- `DataBits`, `src/ur20_1com_232_485_422.rs:102-105`. -/
inductive DataBits where
  | SevenBits
  | EightBits
  deriving DecidableEq, Repr

/-- Derived `FromPrimitive::from_u16` for `DataBits`: the variant with this discriminant. -/
def DataBits.fromU16 (w : Word) : Option DataBits :=
  match w.toNat with
  | 0 => some .SevenBits
  | 1 => some .EightBits
  | _ => none

/-- Derived `ToPrimitive::to_u16` for `DataBits`: the discriminant of the variant, which always fits
16 bits. -/
def DataBits.toU16 : DataBits → Option Word
  | .SevenBits => some 0
  | .EightBits => some 1

/-- `BaudRate`, `src/ur20_1com_232_485_422.rs:110-123`. -/
inductive BaudRate where
  | Baud_300
  | Baud_600
  | Baud_1200
  | Baud_2400
  | Baud_4800
  | Baud_9600
  | Baud_14400
  | Baud_19200
  | Baud_28800
  | Baud_38400
  | Baud_57600
  | Baud_115200
  deriving DecidableEq, Repr

/-- Derived `FromPrimitive::from_u16` for `BaudRate`: the variant with this discriminant. -/
def BaudRate.fromU16 (w : Word) : Option BaudRate :=
  match w.toNat with
  | 0 => some .Baud_300
  | 1 => some .Baud_600
  | 2 => some .Baud_1200
  | 3 => some .Baud_2400
  | 4 => some .Baud_4800
  | 5 => some .Baud_9600
  | 6 => some .Baud_14400
  | 7 => some .Baud_19200
  | 8 => some .Baud_28800
  | 9 => some .Baud_38400
  | 10 => some .Baud_57600
  | 11 => some .Baud_115200
  | _ => none

/-- Derived `ToPrimitive::to_u16` for `BaudRate`: the discriminant of the variant, which always fits
16 bits. -/
def BaudRate.toU16 : BaudRate → Option Word
  | .Baud_300 => some 0
  | .Baud_600 => some 1
  | .Baud_1200 => some 2
  | .Baud_2400 => some 3
  | .Baud_4800 => some 4
  | .Baud_9600 => some 5
  | .Baud_14400 => some 6
  | .Baud_19200 => some 7
  | .Baud_28800 => some 8
  | .Baud_38400 => some 9
  | .Baud_57600 => some 10
  | .Baud_115200 => some 11

/-- `StopBit`, `src/ur20_1com_232_485_422.rs:127-130`. -/
inductive StopBit where
  | OneBit
  | TwoBits
  deriving DecidableEq, Repr

/-- Derived `FromPrimitive::from_u16` for `StopBit`: the variant with this discriminant. -/
def StopBit.fromU16 (w : Word) : Option StopBit :=
  match w.toNat with
  | 0 => some .OneBit
  | 1 => some .TwoBits
  | _ => none

/-- Derived `ToPrimitive::to_u16` for `StopBit`: the discriminant of the variant, which always fits
16 bits. -/
def StopBit.toU16 : StopBit → Option Word
  | .OneBit => some 0
  | .TwoBits => some 1

/-- `Parity`, `src/ur20_1com_232_485_422.rs:134-138`. -/
inductive Parity where
  | None
  | Even
  | Odd
  deriving DecidableEq, Repr

/-- Derived `FromPrimitive::from_u16` for `Parity`: the variant with this discriminant. -/
def Parity.fromU16 (w : Word) : Option Parity :=
  match w.toNat with
  | 0 => some .None
  | 1 => some .Even
  | 2 => some .Odd
  | _ => none

/-- Derived `ToPrimitive::to_u16` for `Parity`: the discriminant of the variant, which always fits
16 bits. -/
def Parity.toU16 : Parity → Option Word
  | .None => some 0
  | .Even => some 1
  | .Odd => some 2

/-- `FlowControl`, `src/ur20_1com_232_485_422.rs:143-147`. -/
inductive FlowControl where
  | None
  | CTS_RTS
  | XON_XOFF
  deriving DecidableEq, Repr

/-- Derived `FromPrimitive::from_u16` for `FlowControl`: the variant with this discriminant. -/
def FlowControl.fromU16 (w : Word) : Option FlowControl :=
  match w.toNat with
  | 0 => some .None
  | 1 => some .CTS_RTS
  | 2 => some .XON_XOFF
  | _ => none

/-- Derived `ToPrimitive::to_u16` for `FlowControl`: the discriminant of the variant, which always fits
16 bits. -/
def FlowControl.toU16 : FlowControl → Option Word
  | .None => some 0
  | .CTS_RTS => some 1
  | .XON_XOFF => some 2

/-- `ProcessDataLength`, `src/ur20_1com_232_485_422.rs:151-154`. -/
inductive ProcessDataLength where
  | EightBytes
  | SixteenBytes
  deriving DecidableEq, Repr

/-- Derived `FromPrimitive::from_u16` for `ProcessDataLength`: the variant with this discriminant. -/
def ProcessDataLength.fromU16 (w : Word) : Option ProcessDataLength :=
  match w.toNat with
  | 0 => some .EightBytes
  | 1 => some .SixteenBytes
  | _ => none

/-- Derived `ToPrimitive::to_u16` for `ProcessDataLength`: the discriminant of the variant, which always fits
16 bits. -/
def ProcessDataLength.toU16 : ProcessDataLength → Option Word
  | .EightBytes => some 0
  | .SixteenBytes => some 1

/-- `match data[i] { 0 => false, 1 => true, _ => Err(ChannelParameter) }`, as used in all
`parameters_from_raw_data` functions, e.g. `src/ur20_do_generic.rs:122-128`. -/
def boolParam (w : Word) : Res Bool :=
  match w.toNat with
  | 0 => .ok false
  | 1 => .ok true
  | _ => .err .channelParameter

/-- `FromPrimitive::from_u16(w).ok_or(Error::ChannelParameter)?` and the equivalent `match`
used in all `parameters_from_raw_data` functions. -/
def codeParam {α : Type} (f : Word → Option α) (w : Word) : Res α :=
  Res.ofOption .channelParameter (f w)

end Ur20
