import Verif.Source.Prelude

/-!
# `src/lib.rs`, translated

Generated by `tools/rust2lean.py` from the source. Do not edit.
-/

set_option linter.unusedVariables false

namespace Ur20.Src.lib

/-- `S5_FACTOR`, `src/lib.rs:33-33`. -/
def S5_FACTOR : Word := 16384

/-- `S7_FACTOR`, `src/lib.rs:34-34`. -/
def S7_FACTOR : Word := 27648

/-- `ChannelValue` has no other variants, `src/lib.rs:42-63`. -/
theorem ChannelValue.variants (x : ChannelValue) :
    (∃ a : Bool, x = ChannelValue.bit a) ∨ (∃ a : F32, x = ChannelValue.decimal32 a) ∨ (∃ a : RsIn, x = ChannelValue.comRsIn a) ∨ (∃ a : RsOut, x = ChannelValue.comRsOut a) ∨ (∃ a : FcntIn, x = ChannelValue.fcntIn a) ∨ (∃ a : FcntOut, x = ChannelValue.fcntOut a) ∨ (∃ a : SilIn, x = ChannelValue.silPFIn a) ∨ (∃ a : List Byte, x = ChannelValue.bytes a) ∨ x = ChannelValue.disabled ∨ x = ChannelValue.none := by
  cases x <;> simp

/-- The fields of `Address`, `src/lib.rs:67-72`. -/
def Address.fields (x : Address) : Nat × Nat :=
  (x.module, x.channel)

/-- `Address` has no other fields. -/
theorem Address.fields_all (x : Address) : x = { module := x.module, channel := x.channel } := rfl

/-- `ModuleCategory` has no other variants, `src/lib.rs:84-107`. -/
theorem ModuleCategory.variants (x : ModuleCategory) : x ∈ [
    ModuleCategory.DI,
    ModuleCategory.DO,
    ModuleCategory.AI,
    ModuleCategory.AO,
    ModuleCategory.CNT,
    ModuleCategory.PWM,
    ModuleCategory.RTD,
    ModuleCategory.TC,
    ModuleCategory.COM,
    ModuleCategory.RO,
    ModuleCategory.PF] := by
  cases x <;> simp

/-- `ModuleType` has no other variants, `src/lib.rs:112-195`. -/
theorem ModuleType.variants (x : ModuleType) : x ∈ [
    ModuleType.UR20_4DI_P,
    ModuleType.UR20_4DI_P_3W,
    ModuleType.UR20_8DI_P_2W,
    ModuleType.UR20_8DI_P_3W,
    ModuleType.UR20_8DI_P_3W_HD,
    ModuleType.UR20_16DI_P,
    ModuleType.UR20_16DI_P_PLC_INT,
    ModuleType.UR20_2DI_P_TS,
    ModuleType.UR20_4DI_P_TS,
    ModuleType.UR20_4DI_N,
    ModuleType.UR20_8DI_N_3W,
    ModuleType.UR20_16DI_N,
    ModuleType.UR20_16DI_N_PLC_INT,
    ModuleType.UR20_4DI_2W_230V_AC,
    ModuleType.UR20_4DO_P,
    ModuleType.UR20_4DO_P_2A,
    ModuleType.UR20_4DO_PN_2A,
    ModuleType.UR20_8DO_P,
    ModuleType.UR20_8DO_P_2W_HD,
    ModuleType.UR20_16DO_P,
    ModuleType.UR20_16DO_P_PLC_INT,
    ModuleType.UR20_4DO_N,
    ModuleType.UR20_4DO_N_2A,
    ModuleType.UR20_8DO_N,
    ModuleType.UR20_16DO_N,
    ModuleType.UR20_16DO_N_PLC_INT,
    ModuleType.UR20_4RO_SSR_255,
    ModuleType.UR20_4RO_CO_255,
    ModuleType.UR20_2PWM_PN_0_5A,
    ModuleType.UR20_2PWM_PN_2A,
    ModuleType.UR20_4AI_UI_16,
    ModuleType.UR20_4AI_UI_16_DIAG,
    ModuleType.UR20_4AI_UI_DIF_16_DIAG,
    ModuleType.UR20_4AI_UI_16_HD,
    ModuleType.UR20_4AI_UI_16_DIAG_HD,
    ModuleType.UR20_4AI_UI_12,
    ModuleType.UR20_8AI_I_16_HD,
    ModuleType.UR20_8AI_I_16_DIAG_HD,
    ModuleType.UR20_8AI_I_PLC_INT,
    ModuleType.UR20_4AI_R_HS_16_DIAG,
    ModuleType.UR20_2AI_SG_24_DIAG,
    ModuleType.UR20_3EM_230V_AC,
    ModuleType.UR20_4AO_UI_16,
    ModuleType.UR20_4AO_UI_16_M,
    ModuleType.UR20_4AO_UI_16_DIAG,
    ModuleType.UR20_4AO_UI_16_M_DIAG,
    ModuleType.UR20_4AO_UI_16_HD,
    ModuleType.UR20_4AO_UI_16_DIAG_HD,
    ModuleType.UR20_1CNT_100_1DO,
    ModuleType.UR20_2CNT_100,
    ModuleType.UR20_1CNT_500,
    ModuleType.UR20_2FCNT_100,
    ModuleType.UR20_1SSI,
    ModuleType.UR20_1COM_232_485_422,
    ModuleType.UR20_1COM_SAI_PRO,
    ModuleType.UR20_4COM_IO_LINK,
    ModuleType.UR20_4AI_RTD_DIAG,
    ModuleType.UR20_4AI_TC_DIAG,
    ModuleType.UR20_PF_I,
    ModuleType.UR20_PF_O,
    ModuleType.UR20_PF_O_1DI_SIL,
    ModuleType.UR20_PF_O_2DI_SIL,
    ModuleType.UR20_PF_O_2DI_DELAY_SIL] := by
  cases x <;> simp

/-- `DataFormat` has no other variants, `src/lib.rs:199-204`. -/
theorem DataFormat.variants (x : DataFormat) : x ∈ [
    DataFormat.S5,
    DataFormat.S7] := by
  cases x <;> simp

/-- The derived `FromPrimitive`, `src/lib.rs:199-204`. -/
instance : FromPrimitive DataFormat where
  from_u16 n := lookup_code n [
    (0, DataFormat.S5),
    (1, DataFormat.S7)]

/-- The derived `ToPrimitive`, `src/lib.rs:199-204`. -/
instance : ToPrimitive DataFormat where
  to_u16 x := match x with
    | DataFormat.S5 => some 0
    | DataFormat.S7 => some 1

/-- `factor`, `src/lib.rs:207-212`. -/
def DataFormat.factor (oc : Bool) (self : DataFormat) :
    Res F32 := do
  let t1 ← (match self with
      | DataFormat.S5 =>
        (pure S5_FACTOR)
      | DataFormat.S7 =>
        (pure S7_FACTOR))
  pure (r_from t1 : F32)

/-- `AnalogUIRange` has no other variants, `src/lib.rs:218-237`. -/
theorem AnalogUIRange.variants (x : AnalogUIRange) : x ∈ [
    AnalogUIRange.mA0To20,
    AnalogUIRange.mA4To20,
    AnalogUIRange.V0To10,
    AnalogUIRange.VMinus10To10,
    AnalogUIRange.V0To5,
    AnalogUIRange.VMinus5To5,
    AnalogUIRange.V1To5,
    AnalogUIRange.V2To10,
    AnalogUIRange.Disabled] := by
  cases x <;> simp

/-- The derived `FromPrimitive`, `src/lib.rs:218-237`. -/
instance : FromPrimitive AnalogUIRange where
  from_u16 n := lookup_code n [
    (0, AnalogUIRange.mA0To20),
    (1, AnalogUIRange.mA4To20),
    (2, AnalogUIRange.V0To10),
    (3, AnalogUIRange.VMinus10To10),
    (4, AnalogUIRange.V0To5),
    (5, AnalogUIRange.VMinus5To5),
    (6, AnalogUIRange.V1To5),
    (7, AnalogUIRange.V2To10),
    (8, AnalogUIRange.Disabled)]

/-- The derived `ToPrimitive`, `src/lib.rs:218-237`. -/
instance : ToPrimitive AnalogUIRange where
  to_u16 x := match x with
    | AnalogUIRange.mA0To20 => some 0
    | AnalogUIRange.mA4To20 => some 1
    | AnalogUIRange.V0To10 => some 2
    | AnalogUIRange.VMinus10To10 => some 3
    | AnalogUIRange.V0To5 => some 4
    | AnalogUIRange.VMinus5To5 => some 5
    | AnalogUIRange.V1To5 => some 6
    | AnalogUIRange.V2To10 => some 7
    | AnalogUIRange.Disabled => some 8

/-- `AnalogIRange` has no other variants, `src/lib.rs:242-249`. -/
theorem AnalogIRange.variants (x : AnalogIRange) : x ∈ [
    AnalogIRange.mA0To20,
    AnalogIRange.mA4To20,
    AnalogIRange.Disabled] := by
  cases x <;> simp

/-- The derived `FromPrimitive`, `src/lib.rs:242-249`. -/
instance : FromPrimitive AnalogIRange where
  from_u16 n := lookup_code n [
    (0, AnalogIRange.mA0To20),
    (1, AnalogIRange.mA4To20),
    (2, AnalogIRange.Disabled)]

/-- The derived `ToPrimitive`, `src/lib.rs:242-249`. -/
instance : ToPrimitive AnalogIRange where
  to_u16 x := match x with
    | AnalogIRange.mA0To20 => some 0
    | AnalogIRange.mA4To20 => some 1
    | AnalogIRange.Disabled => some 2

/-- `RtdRange` has no other variants, `src/lib.rs:253-292`. -/
theorem RtdRange.variants (x : RtdRange) : x ∈ [
    RtdRange.PT100,
    RtdRange.PT200,
    RtdRange.PT500,
    RtdRange.PT1000,
    RtdRange.NI100,
    RtdRange.NI120,
    RtdRange.NI200,
    RtdRange.NI500,
    RtdRange.NI1000,
    RtdRange.Cu10,
    RtdRange.R40,
    RtdRange.R80,
    RtdRange.R150,
    RtdRange.R300,
    RtdRange.R500,
    RtdRange.R1000,
    RtdRange.R2000,
    RtdRange.R4000,
    RtdRange.Disabled] := by
  cases x <;> simp

/-- The derived `FromPrimitive`, `src/lib.rs:253-292`. -/
instance : FromPrimitive RtdRange where
  from_u16 n := lookup_code n [
    (0, RtdRange.PT100),
    (1, RtdRange.PT200),
    (2, RtdRange.PT500),
    (3, RtdRange.PT1000),
    (4, RtdRange.NI100),
    (5, RtdRange.NI120),
    (6, RtdRange.NI200),
    (7, RtdRange.NI500),
    (8, RtdRange.NI1000),
    (9, RtdRange.Cu10),
    (10, RtdRange.R40),
    (11, RtdRange.R80),
    (12, RtdRange.R150),
    (13, RtdRange.R300),
    (14, RtdRange.R500),
    (15, RtdRange.R1000),
    (16, RtdRange.R2000),
    (17, RtdRange.R4000),
    (18, RtdRange.Disabled)]

/-- The derived `ToPrimitive`, `src/lib.rs:253-292`. -/
instance : ToPrimitive RtdRange where
  to_u16 x := match x with
    | RtdRange.PT100 => some 0
    | RtdRange.PT200 => some 1
    | RtdRange.PT500 => some 2
    | RtdRange.PT1000 => some 3
    | RtdRange.NI100 => some 4
    | RtdRange.NI120 => some 5
    | RtdRange.NI200 => some 6
    | RtdRange.NI500 => some 7
    | RtdRange.NI1000 => some 8
    | RtdRange.Cu10 => some 9
    | RtdRange.R40 => some 10
    | RtdRange.R80 => some 11
    | RtdRange.R150 => some 12
    | RtdRange.R300 => some 13
    | RtdRange.R500 => some 14
    | RtdRange.R1000 => some 15
    | RtdRange.R2000 => some 16
    | RtdRange.R4000 => some 17
    | RtdRange.Disabled => some 18

/-- `TemperatureUnit` has no other variants, `src/lib.rs:298-302`. -/
theorem TemperatureUnit.variants (x : TemperatureUnit) : x ∈ [
    TemperatureUnit.Celsius,
    TemperatureUnit.Fahrenheit,
    TemperatureUnit.Kelvin] := by
  cases x <;> simp

/-- The derived `FromPrimitive`, `src/lib.rs:298-302`. -/
instance : FromPrimitive TemperatureUnit where
  from_u16 n := lookup_code n [
    (0, TemperatureUnit.Celsius),
    (1, TemperatureUnit.Fahrenheit),
    (2, TemperatureUnit.Kelvin)]

/-- The derived `ToPrimitive`, `src/lib.rs:298-302`. -/
instance : ToPrimitive TemperatureUnit where
  to_u16 x := match x with
    | TemperatureUnit.Celsius => some 0
    | TemperatureUnit.Fahrenheit => some 1
    | TemperatureUnit.Kelvin => some 2

/-- `ConnectionType` has no other variants, `src/lib.rs:307-311`. -/
theorem ConnectionType.variants (x : ConnectionType) : x ∈ [
    ConnectionType.TwoWire,
    ConnectionType.ThreeWire,
    ConnectionType.FourWire] := by
  cases x <;> simp

/-- The derived `FromPrimitive`, `src/lib.rs:307-311`. -/
instance : FromPrimitive ConnectionType where
  from_u16 n := lookup_code n [
    (0, ConnectionType.TwoWire),
    (1, ConnectionType.ThreeWire),
    (2, ConnectionType.FourWire)]

/-- The derived `ToPrimitive`, `src/lib.rs:307-311`. -/
instance : ToPrimitive ConnectionType where
  to_u16 x := match x with
    | ConnectionType.TwoWire => some 0
    | ConnectionType.ThreeWire => some 1
    | ConnectionType.FourWire => some 2

/-- `ConversionTime` has no other variants, `src/lib.rs:317-324`. -/
theorem ConversionTime.variants (x : ConversionTime) : x ∈ [
    ConversionTime.ms240,
    ConversionTime.ms130,
    ConversionTime.ms80,
    ConversionTime.ms55,
    ConversionTime.ms43,
    ConversionTime.ms36] := by
  cases x <;> simp

/-- The derived `FromPrimitive`, `src/lib.rs:317-324`. -/
instance : FromPrimitive ConversionTime where
  from_u16 n := lookup_code n [
    (0, ConversionTime.ms240),
    (1, ConversionTime.ms130),
    (2, ConversionTime.ms80),
    (3, ConversionTime.ms55),
    (4, ConversionTime.ms43),
    (5, ConversionTime.ms36)]

/-- The derived `ToPrimitive`, `src/lib.rs:317-324`. -/
instance : ToPrimitive ConversionTime where
  to_u16 x := match x with
    | ConversionTime.ms240 => some 0
    | ConversionTime.ms130 => some 1
    | ConversionTime.ms80 => some 2
    | ConversionTime.ms55 => some 3
    | ConversionTime.ms43 => some 4
    | ConversionTime.ms36 => some 5

/-- `InputFilter` has no other variants, `src/lib.rs:330-348`. -/
theorem InputFilter.variants (x : InputFilter) : x ∈ [
    InputFilter.us5,
    InputFilter.us11,
    InputFilter.us21,
    InputFilter.us43,
    InputFilter.us83,
    InputFilter.us167,
    InputFilter.us333,
    InputFilter.us667,
    InputFilter.ms1,
    InputFilter.ms3,
    InputFilter.ms5,
    InputFilter.ms11,
    InputFilter.ms22,
    InputFilter.ms43,
    InputFilter.ms91,
    InputFilter.ms167,
    InputFilter.ms333] := by
  cases x <;> simp

/-- The derived `FromPrimitive`, `src/lib.rs:330-348`. -/
instance : FromPrimitive InputFilter where
  from_u16 n := lookup_code n [
    (0, InputFilter.us5),
    (1, InputFilter.us11),
    (2, InputFilter.us21),
    (3, InputFilter.us43),
    (4, InputFilter.us83),
    (5, InputFilter.us167),
    (6, InputFilter.us333),
    (7, InputFilter.us667),
    (8, InputFilter.ms1),
    (9, InputFilter.ms3),
    (10, InputFilter.ms5),
    (11, InputFilter.ms11),
    (12, InputFilter.ms22),
    (13, InputFilter.ms43),
    (14, InputFilter.ms91),
    (15, InputFilter.ms167),
    (16, InputFilter.ms333)]

/-- The derived `ToPrimitive`, `src/lib.rs:330-348`. -/
instance : ToPrimitive InputFilter where
  to_u16 x := match x with
    | InputFilter.us5 => some 0
    | InputFilter.us11 => some 1
    | InputFilter.us21 => some 2
    | InputFilter.us43 => some 3
    | InputFilter.us83 => some 4
    | InputFilter.us167 => some 5
    | InputFilter.us333 => some 6
    | InputFilter.us667 => some 7
    | InputFilter.ms1 => some 8
    | InputFilter.ms3 => some 9
    | InputFilter.ms5 => some 10
    | InputFilter.ms11 => some 11
    | InputFilter.ms22 => some 12
    | InputFilter.ms43 => some 13
    | InputFilter.ms91 => some 14
    | InputFilter.ms167 => some 15
    | InputFilter.ms333 => some 16

/-- `InputDelay` has no other variants, `src/lib.rs:354-361`. -/
theorem InputDelay.variants (x : InputDelay) : x ∈ [
    InputDelay.no,
    InputDelay.us300,
    InputDelay.ms3,
    InputDelay.ms10,
    InputDelay.ms20,
    InputDelay.ms40] := by
  cases x <;> simp

/-- The derived `FromPrimitive`, `src/lib.rs:354-361`. -/
instance : FromPrimitive InputDelay where
  from_u16 n := lookup_code n [
    (0, InputDelay.no),
    (1, InputDelay.us300),
    (2, InputDelay.ms3),
    (3, InputDelay.ms10),
    (4, InputDelay.ms20),
    (5, InputDelay.ms40)]

/-- The derived `ToPrimitive`, `src/lib.rs:354-361`. -/
instance : ToPrimitive InputDelay where
  to_u16 x := match x with
    | InputDelay.no => some 0
    | InputDelay.us300 => some 1
    | InputDelay.ms3 => some 2
    | InputDelay.ms10 => some 3
    | InputDelay.ms20 => some 4
    | InputDelay.ms40 => some 5

/-- `FrequencySuppression` has no other variants, `src/lib.rs:367-372`. -/
theorem FrequencySuppression.variants (x : FrequencySuppression) : x ∈ [
    FrequencySuppression.Disabled,
    FrequencySuppression.Hz50,
    FrequencySuppression.Hz60,
    FrequencySuppression.Average16] := by
  cases x <;> simp

/-- The derived `FromPrimitive`, `src/lib.rs:367-372`. -/
instance : FromPrimitive FrequencySuppression where
  from_u16 n := lookup_code n [
    (0, FrequencySuppression.Disabled),
    (1, FrequencySuppression.Hz50),
    (2, FrequencySuppression.Hz60),
    (3, FrequencySuppression.Average16)]

/-- The derived `ToPrimitive`, `src/lib.rs:367-372`. -/
instance : ToPrimitive FrequencySuppression where
  to_u16 x := match x with
    | FrequencySuppression.Disabled => some 0
    | FrequencySuppression.Hz50 => some 1
    | FrequencySuppression.Hz60 => some 2
    | FrequencySuppression.Average16 => some 3

/-- `try_from_u32`, `src/lib.rs:375-454`. -/
def ModuleType.try_from_u32 (oc : Bool) (id : BitVec 32) :
    Res ModuleType := do
  let t ← (if id == 597892 then
        (pure ModuleType.UR20_4DI_P)
      else if id == 1777540 then
        (pure ModuleType.UR20_4DI_P_3W)
      else if id == 1253313 then
        (pure ModuleType.UR20_8DI_P_2W)
      else if id == 663489 then
        (pure ModuleType.UR20_8DI_P_3W)
      else if id == 204737 then
        (pure ModuleType.UR20_8DI_P_3W_HD)
      else if id == 303042 then
        (pure ModuleType.UR20_16DI_P)
      else if id == 368578 then
        (pure ModuleType.UR20_16DI_P_PLC_INT)
      else if id == 251741952 then
        (pure ModuleType.UR20_2DI_P_TS)
      else if id == 251807488 then
        (pure ModuleType.UR20_4DI_P_TS)
      else if id == 73604 then
        (pure ModuleType.UR20_4DI_N)
      else if id == 139201 then
        (pure ModuleType.UR20_8DI_N_3W)
      else if id == 827330 then
        (pure ModuleType.UR20_16DI_N)
      else if id == 892866 then
        (pure ModuleType.UR20_16DI_N_PLC_INT)
      else if id == 1482628 then
        (pure ModuleType.UR20_4DI_2W_230V_AC)
      else if id == 16854944 then
        (pure ModuleType.UR20_4DO_P)
      else if id == 17117088 then
        (pure ModuleType.UR20_4DO_P_2A)
      else if id == 18165704 then
        (pure ModuleType.UR20_4DO_PN_2A)
      else if id == 16920520 then
        (pure ModuleType.UR20_8DO_P)
      else if id == 18427848 then
        (pure ModuleType.UR20_8DO_P_2W_HD)
      else if id == 17018832 then
        (pure ModuleType.UR20_16DO_P)
      else if id == 17084368 then
        (pure ModuleType.UR20_16DO_P_PLC_INT)
      else if id == 17444768 then
        (pure ModuleType.UR20_4DO_N)
      else if id == 17510304 then
        (pure ModuleType.UR20_4DO_N_2A)
      else if id == 17575880 then
        (pure ModuleType.UR20_8DO_N)
      else if id == 17674192 then
        (pure ModuleType.UR20_16DO_N)
      else if id == 17739728 then
        (pure ModuleType.UR20_16DO_N_PLC_INT)
      else if id == 17248160 then
        (pure ModuleType.UR20_4RO_SSR_255)
      else if id == 17182624 then
        (pure ModuleType.UR20_4RO_CO_255)
      else if id == 151537792 then
        (pure ModuleType.UR20_2PWM_PN_0_5A)
      else if id == 151603328 then
        (pure ModuleType.UR20_2PWM_PN_2A)
      else if id == 67179972 then
        (pure ModuleType.UR20_4AI_UI_16)
      else if id == 67245380 then
        (pure ModuleType.UR20_4AI_UI_16_DIAG)
      else if id == 69080388 then
        (pure ModuleType.UR20_4AI_UI_DIF_16_DIAG)
      else if id == 68359620 then
        (pure ModuleType.UR20_4AI_UI_16_HD)
      else if id == 68425028 then
        (pure ModuleType.UR20_4AI_UI_16_DIAG_HD)
      else if id == 68228548 then
        (pure ModuleType.UR20_4AI_UI_12)
      else if id == 67376581 then
        (pure ModuleType.UR20_8AI_I_16_HD)
      else if id == 67441989 then
        (pure ModuleType.UR20_8AI_I_16_DIAG_HD)
      else if id == 67704261 then
        (pure ModuleType.UR20_8AI_I_PLC_INT)
      else if id == 68949316 then
        (pure ModuleType.UR20_4AI_R_HS_16_DIAG)
      else if id == 68892013 then
        (pure ModuleType.UR20_2AI_SG_24_DIAG)
      else if id == 68695405 then
        (pure ModuleType.UR20_3EM_230V_AC)
      else if id == 84026848 then
        (pure ModuleType.UR20_4AO_UI_16)
      else if id == 84288992 then
        (pure ModuleType.UR20_4AO_UI_16_M)
      else if id == 83961184 then
        (pure ModuleType.UR20_4AO_UI_16_DIAG)
      else if id == 84223328 then
        (pure ModuleType.UR20_4AO_UI_16_M_DIAG)
      else if id == 84157920 then
        (pure ModuleType.UR20_4AO_UI_16_HD)
      else if id == 84092256 then
        (pure ModuleType.UR20_4AO_UI_16_DIAG_HD)
      else if id == 146880512 then
        (pure ModuleType.UR20_1CNT_100_1DO)
      else if id == 147011584 then
        (pure ModuleType.UR20_2CNT_100)
      else if id == 147077121 then
        (pure ModuleType.UR20_1CNT_500)
      else if id == 142682350 then
        (pure ModuleType.UR20_2FCNT_100)
      else if id == 163674240 then
        (pure ModuleType.UR20_1SSI)
      else if id == 239157229 then
        (pure ModuleType.UR20_1COM_232_485_422)
      else if id == 197257216 then
        (pure ModuleType.UR20_1COM_SAI_PRO)
      else if id == 243345261 then
        (pure ModuleType.UR20_4COM_IO_LINK)
      else if id == 67507524 then
        (pure ModuleType.UR20_4AI_RTD_DIAG)
      else if id == 67573060 then
        (pure ModuleType.UR20_4AI_TC_DIAG)
      else if id == 402759491 then
        (pure ModuleType.UR20_PF_O_1DI_SIL)
      else if id == 402890563 then
        (pure ModuleType.UR20_PF_O_2DI_SIL)
      else if id == 402825027 then
        (pure ModuleType.UR20_PF_O_2DI_DELAY_SIL)
      else
        (Res.err Error.unknownModule))
  pure t

/-- `channel_count`, `src/lib.rs:459-532`. -/
def ModuleType.channel_count (oc : Bool) (self : ModuleType) :
    Res Nat := do
  (match self with
  | ModuleType.UR20_PF_I | ModuleType.UR20_PF_O | ModuleType.UR20_PF_O_1DI_SIL | ModuleType.UR20_PF_O_2DI_SIL | ModuleType.UR20_PF_O_2DI_DELAY_SIL =>
    (pure 0)
  | ModuleType.UR20_1CNT_100_1DO | ModuleType.UR20_1CNT_500 | ModuleType.UR20_1COM_232_485_422 | ModuleType.UR20_1SSI | ModuleType.UR20_1COM_SAI_PRO =>
    (pure 1)
  | ModuleType.UR20_2DI_P_TS | ModuleType.UR20_2PWM_PN_0_5A | ModuleType.UR20_2PWM_PN_2A | ModuleType.UR20_2AI_SG_24_DIAG | ModuleType.UR20_2CNT_100 | ModuleType.UR20_2FCNT_100 =>
    (pure 2)
  | ModuleType.UR20_4DI_P | ModuleType.UR20_4DI_P_3W | ModuleType.UR20_4DI_P_TS | ModuleType.UR20_4DI_N | ModuleType.UR20_4DI_2W_230V_AC | ModuleType.UR20_4DO_P | ModuleType.UR20_4DO_P_2A | ModuleType.UR20_4DO_PN_2A | ModuleType.UR20_4DO_N | ModuleType.UR20_4DO_N_2A | ModuleType.UR20_4RO_SSR_255 | ModuleType.UR20_4RO_CO_255 | ModuleType.UR20_4AI_UI_16 | ModuleType.UR20_4AI_UI_16_DIAG | ModuleType.UR20_4AI_UI_DIF_16_DIAG | ModuleType.UR20_4AI_UI_16_HD | ModuleType.UR20_4AI_UI_16_DIAG_HD | ModuleType.UR20_4AI_UI_12 | ModuleType.UR20_4AI_R_HS_16_DIAG | ModuleType.UR20_4AO_UI_16 | ModuleType.UR20_4AO_UI_16_M | ModuleType.UR20_4AO_UI_16_DIAG | ModuleType.UR20_4AO_UI_16_M_DIAG | ModuleType.UR20_4AO_UI_16_HD | ModuleType.UR20_4AO_UI_16_DIAG_HD | ModuleType.UR20_4COM_IO_LINK | ModuleType.UR20_4AI_RTD_DIAG | ModuleType.UR20_4AI_TC_DIAG =>
    (pure 4)
  | ModuleType.UR20_8DI_P_2W | ModuleType.UR20_8DI_P_3W | ModuleType.UR20_8DI_P_3W_HD | ModuleType.UR20_8DI_N_3W | ModuleType.UR20_8DO_P | ModuleType.UR20_8DO_P_2W_HD | ModuleType.UR20_8DO_N | ModuleType.UR20_8AI_I_16_HD | ModuleType.UR20_8AI_I_16_DIAG_HD | ModuleType.UR20_8AI_I_PLC_INT | ModuleType.UR20_3EM_230V_AC =>
    (pure 8)
  | ModuleType.UR20_16DI_P | ModuleType.UR20_16DI_P_PLC_INT | ModuleType.UR20_16DI_N | ModuleType.UR20_16DI_N_PLC_INT | ModuleType.UR20_16DO_P | ModuleType.UR20_16DO_P_PLC_INT | ModuleType.UR20_16DO_N | ModuleType.UR20_16DO_N_PLC_INT =>
    (pure 16))

/-- `from_str`, `src/lib.rs:538-619`. -/
def ModuleType.from_str (oc : Bool) (s : String) (up : Char → List Char) :
    Res ModuleType := do
  let t1 := (r_replace (r_to_uppercase up s) '-' "_")
  let t ← (if t1 == "UR20_4DI_P" then
        (pure ModuleType.UR20_4DI_P)
      else if t1 == "UR20_4DI_P_3W" then
        (pure ModuleType.UR20_4DI_P_3W)
      else if t1 == "UR20_8DI_P_2W" then
        (pure ModuleType.UR20_8DI_P_2W)
      else if t1 == "UR20_8DI_P_3W" then
        (pure ModuleType.UR20_8DI_P_3W)
      else if t1 == "UR20_8DI_P_3W_HD" then
        (pure ModuleType.UR20_8DI_P_3W_HD)
      else if t1 == "UR20_16DI_P" then
        (pure ModuleType.UR20_16DI_P)
      else if t1 == "UR20_16DI_P_PLC_INT" then
        (pure ModuleType.UR20_16DI_P_PLC_INT)
      else if t1 == "UR20_2DI_P_TS" then
        (pure ModuleType.UR20_2DI_P_TS)
      else if t1 == "UR20_4DI_P_TS" then
        (pure ModuleType.UR20_4DI_P_TS)
      else if t1 == "UR20_4DI_N" then
        (pure ModuleType.UR20_4DI_N)
      else if t1 == "UR20_8DI_N_3W" then
        (pure ModuleType.UR20_8DI_N_3W)
      else if t1 == "UR20_16DI_N" then
        (pure ModuleType.UR20_16DI_N)
      else if t1 == "UR20_16DI_N_PLC_INT" then
        (pure ModuleType.UR20_16DI_N_PLC_INT)
      else if t1 == "UR20_4DI_2W_230V_AC" then
        (pure ModuleType.UR20_4DI_2W_230V_AC)
      else if t1 == "UR20_4DO_P" then
        (pure ModuleType.UR20_4DO_P)
      else if t1 == "UR20_4DO_P_2A" then
        (pure ModuleType.UR20_4DO_P_2A)
      else if t1 == "UR20_4DO_PN_2A" then
        (pure ModuleType.UR20_4DO_PN_2A)
      else if t1 == "UR20_8DO_P" then
        (pure ModuleType.UR20_8DO_P)
      else if t1 == "UR20_8DO_P_2W_HD" then
        (pure ModuleType.UR20_8DO_P_2W_HD)
      else if t1 == "UR20_16DO_P" then
        (pure ModuleType.UR20_16DO_P)
      else if t1 == "UR20_16DO_P_PLC_INT" then
        (pure ModuleType.UR20_16DO_P_PLC_INT)
      else if t1 == "UR20_4DO_N" then
        (pure ModuleType.UR20_4DO_N)
      else if t1 == "UR20_4DO_N_2A" then
        (pure ModuleType.UR20_4DO_N_2A)
      else if t1 == "UR20_8DO_N" then
        (pure ModuleType.UR20_8DO_N)
      else if t1 == "UR20_16DO_N" then
        (pure ModuleType.UR20_16DO_N)
      else if t1 == "UR20_16DO_N_PLC_INT" then
        (pure ModuleType.UR20_16DO_N_PLC_INT)
      else if t1 == "UR20_4RO_SSR_255" then
        (pure ModuleType.UR20_4RO_SSR_255)
      else if t1 == "UR20_4RO_CO_255" then
        (pure ModuleType.UR20_4RO_CO_255)
      else if t1 == "UR20_2PWM_PN_0_5A" then
        (pure ModuleType.UR20_2PWM_PN_0_5A)
      else if t1 == "UR20_2PWM_PN_2A" then
        (pure ModuleType.UR20_2PWM_PN_2A)
      else if t1 == "UR20_4AI_UI_16" then
        (pure ModuleType.UR20_4AI_UI_16)
      else if t1 == "UR20_4AI_UI_16_DIAG" then
        (pure ModuleType.UR20_4AI_UI_16_DIAG)
      else if t1 == "UR20_4AI_UI_DIF_16_DIAG" then
        (pure ModuleType.UR20_4AI_UI_DIF_16_DIAG)
      else if t1 == "UR20_4AI_UI_16_HD" then
        (pure ModuleType.UR20_4AI_UI_16_HD)
      else if t1 == "UR20_4AI_UI_16_DIAG_HD" then
        (pure ModuleType.UR20_4AI_UI_16_DIAG_HD)
      else if t1 == "UR20_4AI_UI_12" then
        (pure ModuleType.UR20_4AI_UI_12)
      else if t1 == "UR20_8AI_I_16_HD" then
        (pure ModuleType.UR20_8AI_I_16_HD)
      else if t1 == "UR20_8AI_I_16_DIAG_HD" then
        (pure ModuleType.UR20_8AI_I_16_DIAG_HD)
      else if t1 == "UR20_8AI_I_PLC_INT" then
        (pure ModuleType.UR20_8AI_I_PLC_INT)
      else if t1 == "UR20_4AI_R_HS_16_DIAG" then
        (pure ModuleType.UR20_4AI_R_HS_16_DIAG)
      else if t1 == "UR20_2AI_SG_24_DIAG" then
        (pure ModuleType.UR20_2AI_SG_24_DIAG)
      else if t1 == "UR20_3EM_230V_AC" then
        (pure ModuleType.UR20_3EM_230V_AC)
      else if t1 == "UR20_4AO_UI_16" then
        (pure ModuleType.UR20_4AO_UI_16)
      else if t1 == "UR20_4AO_UI_16_M" then
        (pure ModuleType.UR20_4AO_UI_16_M)
      else if t1 == "UR20_4AO_UI_16_DIAG" then
        (pure ModuleType.UR20_4AO_UI_16_DIAG)
      else if t1 == "UR20_4AO_UI_16_M_DIAG" then
        (pure ModuleType.UR20_4AO_UI_16_M_DIAG)
      else if t1 == "UR20_4AO_UI_16_HD" then
        (pure ModuleType.UR20_4AO_UI_16_HD)
      else if t1 == "UR20_4AO_UI_16_DIAG_HD" then
        (pure ModuleType.UR20_4AO_UI_16_DIAG_HD)
      else if t1 == "UR20_1CNT_100_1DO" then
        (pure ModuleType.UR20_1CNT_100_1DO)
      else if t1 == "UR20_2CNT_100" then
        (pure ModuleType.UR20_2CNT_100)
      else if t1 == "UR20_1CNT_500" then
        (pure ModuleType.UR20_1CNT_500)
      else if t1 == "UR20_2FCNT_100" then
        (pure ModuleType.UR20_2FCNT_100)
      else if t1 == "UR20_1SSI" then
        (pure ModuleType.UR20_1SSI)
      else if t1 == "UR20_1COM_232_485_422" then
        (pure ModuleType.UR20_1COM_232_485_422)
      else if t1 == "UR20_1COM_SAI_PRO" then
        (pure ModuleType.UR20_1COM_SAI_PRO)
      else if t1 == "UR20_4COM_IO_LINK" then
        (pure ModuleType.UR20_4COM_IO_LINK)
      else if t1 == "UR20_4AI_RTD_DIAG" then
        (pure ModuleType.UR20_4AI_RTD_DIAG)
      else if t1 == "UR20_4AI_TC_DIAG" then
        (pure ModuleType.UR20_4AI_TC_DIAG)
      else if t1 == "UR20_PF_I" then
        (pure ModuleType.UR20_PF_I)
      else if t1 == "UR20_PF_O" then
        (pure ModuleType.UR20_PF_O)
      else if t1 == "UR20_PF_O_1DI_SIL" then
        (pure ModuleType.UR20_PF_O_1DI_SIL)
      else if t1 == "UR20_PF_O_2DI_SIL" then
        (pure ModuleType.UR20_PF_O_2DI_SIL)
      else if t1 == "UR20_PF_O_2DI_DELAY_SIL" then
        (pure ModuleType.UR20_PF_O_2DI_DELAY_SIL)
      else
        (Res.err Error.unknownModule))
  pure t

/-- `from_str`, `src/lib.rs:625-643`. -/
def ModuleCategory.from_str (oc : Bool) (s : String) (up : Char → List Char) :
    Res ModuleCategory := do
  let t1 := (r_to_uppercase up s)
  let c ← (if t1 == "DI" then
        (pure ModuleCategory.DI)
      else if t1 == "DO" then
        (pure ModuleCategory.DO)
      else if t1 == "AI" then
        (pure ModuleCategory.AI)
      else if t1 == "AO" then
        (pure ModuleCategory.AO)
      else if t1 == "CNT" then
        (pure ModuleCategory.CNT)
      else if t1 == "PWM" then
        (pure ModuleCategory.PWM)
      else if t1 == "RTD" then
        (pure ModuleCategory.RTD)
      else if t1 == "TC" then
        (pure ModuleCategory.TC)
      else if t1 == "COM" then
        (pure ModuleCategory.COM)
      else if t1 == "RO" then
        (pure ModuleCategory.RO)
      else
        (Res.err Error.unknownCategory))
  pure c

/-- `from`, `src/lib.rs:648-724`. -/
def ModuleCategory.from_ModuleType (oc : Bool) (val : ModuleType) :
    Res ModuleCategory := do
  (match val with
  | ModuleType.UR20_4DI_P | ModuleType.UR20_4DI_P_3W | ModuleType.UR20_8DI_P_2W | ModuleType.UR20_8DI_P_3W | ModuleType.UR20_8DI_P_3W_HD | ModuleType.UR20_16DI_P | ModuleType.UR20_16DI_P_PLC_INT | ModuleType.UR20_2DI_P_TS | ModuleType.UR20_4DI_P_TS | ModuleType.UR20_4DI_N | ModuleType.UR20_8DI_N_3W | ModuleType.UR20_16DI_N | ModuleType.UR20_16DI_N_PLC_INT | ModuleType.UR20_4DI_2W_230V_AC =>
    (pure ModuleCategory.DI)
  | ModuleType.UR20_4DO_P | ModuleType.UR20_4DO_P_2A | ModuleType.UR20_4DO_PN_2A | ModuleType.UR20_8DO_P | ModuleType.UR20_8DO_P_2W_HD | ModuleType.UR20_16DO_P | ModuleType.UR20_16DO_P_PLC_INT | ModuleType.UR20_4DO_N | ModuleType.UR20_4DO_N_2A | ModuleType.UR20_8DO_N | ModuleType.UR20_16DO_N | ModuleType.UR20_16DO_N_PLC_INT | ModuleType.UR20_4RO_SSR_255 | ModuleType.UR20_4RO_CO_255 =>
    (pure ModuleCategory.DO)
  | ModuleType.UR20_2PWM_PN_0_5A | ModuleType.UR20_2PWM_PN_2A =>
    (pure ModuleCategory.PWM)
  | ModuleType.UR20_4AI_UI_16 | ModuleType.UR20_4AI_UI_16_DIAG | ModuleType.UR20_4AI_UI_DIF_16_DIAG | ModuleType.UR20_4AI_UI_16_HD | ModuleType.UR20_4AI_UI_16_DIAG_HD | ModuleType.UR20_4AI_UI_12 | ModuleType.UR20_8AI_I_16_HD | ModuleType.UR20_8AI_I_16_DIAG_HD | ModuleType.UR20_8AI_I_PLC_INT | ModuleType.UR20_4AI_R_HS_16_DIAG | ModuleType.UR20_2AI_SG_24_DIAG | ModuleType.UR20_3EM_230V_AC =>
    (pure ModuleCategory.AI)
  | ModuleType.UR20_4AO_UI_16 | ModuleType.UR20_4AO_UI_16_M | ModuleType.UR20_4AO_UI_16_DIAG | ModuleType.UR20_4AO_UI_16_M_DIAG | ModuleType.UR20_4AO_UI_16_HD | ModuleType.UR20_4AO_UI_16_DIAG_HD =>
    (pure ModuleCategory.AO)
  | ModuleType.UR20_1CNT_100_1DO | ModuleType.UR20_2CNT_100 | ModuleType.UR20_1CNT_500 | ModuleType.UR20_2FCNT_100 =>
    (pure ModuleCategory.CNT)
  | ModuleType.UR20_1SSI | ModuleType.UR20_1COM_232_485_422 | ModuleType.UR20_1COM_SAI_PRO | ModuleType.UR20_4COM_IO_LINK =>
    (pure ModuleCategory.COM)
  | ModuleType.UR20_4AI_RTD_DIAG =>
    (pure ModuleCategory.RTD)
  | ModuleType.UR20_4AI_TC_DIAG =>
    (pure ModuleCategory.TC)
  | ModuleType.UR20_PF_I | ModuleType.UR20_PF_O | ModuleType.UR20_PF_O_1DI_SIL | ModuleType.UR20_PF_O_2DI_SIL | ModuleType.UR20_PF_O_2DI_DELAY_SIL =>
    (pure ModuleCategory.PF))

end Ur20.Src.lib
