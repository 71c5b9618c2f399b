import Verif.Model.Coupler

/-!
# Specification: parameter registers

The documented code of every parameter value, the largest code per parameter register of every
supported module type, and which register describes which field of a module.
-/

namespace Ur20.Spec

/-- A parameter value with a documented register code. -/
class Coded (α : Type) where
  /-- the register value -/
  code : α → Nat

export Coded (code)

instance : Coded Bool := ⟨fun b => if b then 1 else 0⟩

instance : Coded DataFormat := ⟨fun
  | .S5 => 0 | .S7 => 1⟩

instance : Coded AnalogUIRange := ⟨fun
  | .mA0To20 => 0 | .mA4To20 => 1 | .V0To10 => 2 | .VMinus10To10 => 3 | .V0To5 => 4
  | .VMinus5To5 => 5 | .V1To5 => 6 | .V2To10 => 7 | .Disabled => 8⟩

instance : Coded AnalogIRange := ⟨fun
  | .mA0To20 => 0 | .mA4To20 => 1 | .Disabled => 2⟩

instance : Coded RtdRange := ⟨fun
  | .PT100 => 0 | .PT200 => 1 | .PT500 => 2 | .PT1000 => 3 | .NI100 => 4 | .NI120 => 5
  | .NI200 => 6 | .NI500 => 7 | .NI1000 => 8 | .Cu10 => 9 | .R40 => 10 | .R80 => 11 | .R150 => 12
  | .R300 => 13 | .R500 => 14 | .R1000 => 15 | .R2000 => 16 | .R4000 => 17 | .Disabled => 18⟩

instance : Coded TemperatureUnit := ⟨fun
  | .Celsius => 0 | .Fahrenheit => 1 | .Kelvin => 2⟩

instance : Coded ConnectionType := ⟨fun
  | .TwoWire => 0 | .ThreeWire => 1 | .FourWire => 2⟩

instance : Coded ConversionTime := ⟨fun
  | .ms240 => 0 | .ms130 => 1 | .ms80 => 2 | .ms55 => 3 | .ms43 => 4 | .ms36 => 5⟩

instance : Coded InputFilter := ⟨fun
  | .us5 => 0 | .us11 => 1 | .us21 => 2 | .us43 => 3 | .us83 => 4 | .us167 => 5 | .us333 => 6
  | .us667 => 7 | .ms1 => 8 | .ms3 => 9 | .ms5 => 10 | .ms11 => 11 | .ms22 => 12 | .ms43 => 13
  | .ms91 => 14 | .ms167 => 15 | .ms333 => 16⟩

instance : Coded InputDelay := ⟨fun
  | .no => 0 | .us300 => 1 | .ms3 => 2 | .ms10 => 3 | .ms20 => 4 | .ms40 => 5⟩

instance : Coded FrequencySuppression := ⟨fun
  | .Disabled => 0 | .Hz50 => 1 | .Hz60 => 2 | .Average16 => 3⟩

instance : Coded TcRange := ⟨fun
  | .TC_Type_J => 0 | .TC_Type_K => 1 | .TC_Type_N => 2 | .TC_Type_R => 3 | .TC_Type_S => 4
  | .TC_Type_T => 5 | .TC_Type_B => 6 | .TC_Type_C => 7 | .TC_Type_E => 8 | .TC_Type_L => 9
  | .TC_Type_U => 10 | .uVPlusMinus15625 => 11 | .uVPlusMinus31250 => 12
  | .uVPlusMinus62500 => 13 | .mVPlusMinus125 => 14 | .mVPlusMinus250 => 15
  | .mVPlusMinus500 => 16 | .VPlusMinus1 => 17 | .VPlusMinus2 => 18 | .Disabled => 19⟩

instance : Coded ColdJunctionCompensation := ⟨fun
  | .Internal => 0 | .ExternalChannel0 => 1 | .ExternalChannel1 => 2 | .ExternalChannel2 => 3
  | .ExternalChannel3 => 4⟩

instance : Coded OperatingMode := ⟨fun
  | .Disabled => 0 | .RS232 => 1 | .RS485 => 2 | .RS422 => 3⟩

instance : Coded DataBits := ⟨fun
  | .SevenBits => 0 | .EightBits => 1⟩

instance : Coded BaudRate := ⟨fun
  | .Baud_300 => 0 | .Baud_600 => 1 | .Baud_1200 => 2 | .Baud_2400 => 3 | .Baud_4800 => 4
  | .Baud_9600 => 5 | .Baud_14400 => 6 | .Baud_19200 => 7 | .Baud_28800 => 8 | .Baud_38400 => 9
  | .Baud_57600 => 10 | .Baud_115200 => 11⟩

instance : Coded StopBit := ⟨fun
  | .OneBit => 0 | .TwoBits => 1⟩

instance : Coded Parity := ⟨fun
  | .None => 0 | .Even => 1 | .Odd => 2⟩

instance : Coded FlowControl := ⟨fun
  | .None => 0 | .CTS_RTS => 1 | .XON_XOFF => 2⟩

instance : Coded ProcessDataLength := ⟨fun
  | .EightBytes => 0 | .SixteenBytes => 1⟩

/-- The largest accepted value of each parameter register, in register order; `none` for module
types the coupler does not support. 65535 means that every value is accepted. -/
def maxCodes : ModuleType → Option (List Nat)
  | .UR20_4DI_P => some (List.replicate 4 5)
  | .UR20_8DI_P_2W => some (List.replicate 8 5)
  | .UR20_4DO_P | .UR20_4DO_P_2A | .UR20_4RO_CO_255 => some (List.replicate 4 1)
  | .UR20_8DO_P => some (List.replicate 8 1)
  | .UR20_16DO_P | .UR20_PF_O_1DI_SIL => some []
  | .UR20_4AO_UI_16 => some (List.replicate 4 [1, 8, 65535]).flatten
  | .UR20_4AO_UI_16_DIAG => some (List.replicate 4 [1, 8, 65535, 1]).flatten
  | .UR20_4AI_RTD_DIAG => some (2 :: (List.replicate 4 [18, 2, 5, 1, 1, 65535, 65535]).flatten)
  | .UR20_4AI_TC_DIAG => some (2 :: (List.replicate 4 [19, 4, 5, 1, 1, 65535, 65535]).flatten)
  | .UR20_4AI_UI_16_DIAG => some (3 :: (List.replicate 4 [1, 1, 1, 1, 8]).flatten)
  | .UR20_4AI_UI_12 | .UR20_4AI_UI_16 => some (3 :: (List.replicate 4 [1, 8]).flatten)
  | .UR20_8AI_I_16_DIAG_HD => some (3 :: (List.replicate 8 [1, 1, 1, 2]).flatten)
  | .UR20_2FCNT_100 => some [16, 16]
  | .UR20_1COM_232_485_422 => some [1, 3, 11, 1, 2, 2, 1, 1, 255, 255]
  | _ => none

/-- The register holds the code of this value. -/
def holds {α : Type} [Coded α] (v : α) (w : Word) : Prop := w.toNat = code v

/-- The register holds this signed 16 bit number. -/
def holdsInt (z : Int) (w : Word) : Prop := w.toInt = z

/-- The register holds this character. -/
def holdsChar (b : Byte) (w : Word) : Prop := w.toNat = b.toNat

/-- The register holds the substitute value: its decoded value is `sub` if the channel is enabled,
and `sub` is zero otherwise. -/
def holdsSubstitute (rng : AnalogUIRange) (fmt : DataFormat) (sub : F32) (w : Word) : Prop :=
  if rng = .Disabled then sub = .fin 0 else u16ToAnalogUiValue w rng fmt = some sub

/-- What the parameter registers of a module say, register by register: for each one the relation
between its value and a field of the module. -/
def registers : Module → List (Word → Prop)
  | .di m => m.chParams.flatMap fun c => [holds c.inputDelay]
  | .dout m => m.chParams.flatMap fun c => [holds c.substituteValue]
  | .do16 => []
  | .ro m => m.chParams.flatMap fun c => [holds c.substituteValue]
  | .ao m => m.chParams.flatMap fun c =>
    [holds c.dataFormat, holds c.outputRange,
      holdsSubstitute c.outputRange c.dataFormat c.substituteValue]
  | .aoDiag m => m.chParams.flatMap fun c =>
    [holds c.dataFormat, holds c.outputRange,
      holdsSubstitute c.outputRange c.dataFormat c.substituteValue, holds c.channelDiagnostics]
  | .rtd m => holds m.temperatureUnit :: m.chParams.flatMap fun c =>
    [holds c.measurementRange, holds c.connectionType, holds c.conversionTime,
      holds c.channelDiagnostics, holds c.limitValueMonitoring, holdsInt c.highLimitValue,
      holdsInt c.lowLimitValue]
  | .tc m => holds m.temperatureUnit :: m.chParams.toList.flatMap fun c =>
    [holds c.measurementRange, holds c.coldJunctionCompensation, holds c.conversionTime,
      holds c.channelDiagnostics, holds c.limitValueMonitoring, holdsInt c.highLimitValue,
      holdsInt c.lowLimitValue]
  | .aiDiag m => holds m.frequencySuppression :: m.chParams.flatMap fun c =>
    [holds c.channelDiagnostics, holds c.diagShortCircuit, holds c.diagLineBreak,
      holds c.dataFormat, holds c.measurementRange]
  | .ai m => holds m.frequencySuppression :: m.chParams.flatMap fun c =>
    [holds c.dataFormat, holds c.measurementRange]
  | .aiI m => holds m.frequencySuppression :: m.chParams.flatMap fun c =>
    [holds c.channelDiagnostics, holds c.diagShortCircuit, holds c.dataFormat,
      holds c.measurementRange]
  | .fcnt m => m.chParams.flatMap fun c => [holds c.inputFilter]
  | .com m => holds m.processDataLen :: m.chParams.flatMap fun c =>
    [holds c.operatingMode, holds c.baudRate, holds c.stopBit, holds c.parity,
      holds c.flowControl, holds c.dataBits, holds c.terminatingResistor, holdsChar c.xonChar,
      holdsChar c.xoffChar]
  | .sil => []

end Ur20.Spec
