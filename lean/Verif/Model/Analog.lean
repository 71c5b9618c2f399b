import Verif.Model.Values

/-!
# Analog conversions (`src/util.rs:55-117`, `src/ur20_4ai_tc_diag.rs:199-227`)
-/

namespace Ur20

/-- `DataFormat::factor`, `src/lib.rs:33-34` and `src/lib.rs:206-213`. -/
def DataFormat.factor : DataFormat → F32
  | .S5 => F32.lit 16384
  | .S7 => F32.lit 27648

/-- `f32::from(data as i16)`. -/
def wordToF32 (w : Word) : F32 := F32.lit (w.toInt : Rat)

/-- `v as i16 as u16`. -/
def f32ToWord (v : F32) : Word := BitVec.ofInt 16 v.toI16

/-- `analog_ui_value_to_u16`, `src/util.rs:55-69`. -/
def analogUiValueToU16 (v : F32) (range : AnalogUIRange) (format : DataFormat) : Word :=
  let factor := format.factor
  let v := match range with
    | .mA0To20 => factor * v / F32.lit 20
    | .mA4To20 => factor * (v - F32.lit 4) / F32.lit 16
    | .V0To10 | .VMinus10To10 => factor * v / F32.lit 10
    | .V0To5 | .VMinus5To5 => factor * v / F32.lit 5
    | .V1To5 => factor * (v - F32.lit 1) / F32.lit 4
    | .V2To10 => factor * (v - F32.lit 2) / F32.lit 8
    | .Disabled => F32.lit 0
  f32ToWord v

/-- `u16_to_analog_ui_value`, `src/util.rs:71-89`. -/
def u16ToAnalogUiValue (data : Word) (range : AnalogUIRange) (format : DataFormat) : Option F32 :=
  let factor := format.factor
  let data := wordToF32 data
  match range with
  | .mA0To20 => some (data * F32.lit 20 / factor)
  | .mA4To20 => some (data * F32.lit 16 / factor + F32.lit 4)
  | .V0To10 | .VMinus10To10 => some (data * F32.lit 10 / factor)
  | .V0To5 | .VMinus5To5 => some (data * F32.lit 5 / factor)
  | .V1To5 => some (data * F32.lit 4 / factor + F32.lit 1)
  | .V2To10 => some (data * F32.lit 8 / factor + F32.lit 2)
  | .Disabled => none

/-- The `n * u32::from(data) as f32 / 0x6C00 as f32` of `src/util.rs:112`. -/
def rtdResistance (n : Rat) (data : Word) : F32 :=
  F32.lit n * F32.lit (data.toNat : Rat) / F32.lit 0x6C00

/-- `u16_to_rtd_value`, `src/util.rs:91-117`. -/
def u16ToRtdValue (data : Word) (range : RtdRange) : Option F32 :=
  match range with
  | .PT100 | .PT200 | .PT500 | .PT1000 | .NI100 | .NI120 | .NI200 | .NI500 | .NI1000 | .Cu10 =>
    some (wordToF32 data / F32.lit 10)
  | .R40 => some (rtdResistance 40 data)
  | .R80 => some (rtdResistance 80 data)
  | .R150 => some (rtdResistance 150 data)
  | .R300 => some (rtdResistance 300 data)
  | .R500 => some (rtdResistance 500 data)
  | .R1000 => some (rtdResistance 1000 data)
  | .R2000 => some (rtdResistance 2000 data)
  | .R4000 => some (rtdResistance 4000 data)
  | .Disabled => none

/-- `u16_to_thermal_value`, `src/ur20_4ai_tc_diag.rs:200-227`. -/
def u16ToThermalValue (val : Word) (range : TcRange) : Option F32 :=
  let fval := wordToF32 val
  match range with
  | .TC_Type_J | .TC_Type_K | .TC_Type_N | .TC_Type_R | .TC_Type_S | .TC_Type_T | .TC_Type_B
  | .TC_Type_C | .TC_Type_E | .TC_Type_L | .TC_Type_U =>
    if val = 32767#16 then none else some (fval * F32.lit (1 / 10))
  | .uVPlusMinus15625 => some (F32.lit (15625 / 1000000) * fval / F32.lit 32767)
  | .uVPlusMinus31250 => some (F32.lit (31250 / 1000000) * fval / F32.lit 32767)
  | .uVPlusMinus62500 => some (F32.lit (62500 / 1000000) * fval / F32.lit 32767)
  | .mVPlusMinus125 => some (F32.lit (125 / 1000) * fval / F32.lit 32767)
  | .mVPlusMinus250 => some (F32.lit (250 / 1000) * fval / F32.lit 32767)
  | .mVPlusMinus500 => some (F32.lit (500 / 1000) * fval / F32.lit 32767)
  | .VPlusMinus1 => some (F32.lit 1 * fval / F32.lit 32767)
  | .VPlusMinus2 => some (F32.lit 2 * fval / F32.lit 32767)
  | .Disabled => none

end Ur20
