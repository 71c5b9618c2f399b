import Mathlib.Data.Rat.Defs
import Mathlib.Algebra.Order.Group.Unbundled.Abs
import Mathlib.Algebra.Order.Field.Rat
import Mathlib.Algebra.Field.Rat
import Verif.Model.Coupler

/-!
# Specification: analog values

Physical values are exact rational numbers. Raw values are the signed 16-bit numbers in the
registers of the process image.
-/

namespace Ur20.Spec

/-- `q` is the value of a finite single precision number: 24 bit significand, exponent between
-149 and 104. -/
def Single (q : ℚ) : Prop :=
  ∃ m e : ℤ, |m| < 2 ^ 24 ∧ -149 ≤ e ∧ e ≤ 104 ∧ q = m * (2 : ℚ) ^ e

/-- `v` is a single precision number, and none is nearer to `q`. -/
def IsNearest (v q : ℚ) : Prop := Single v ∧ ∀ r, Single r → |v - q| ≤ |r - q|

/-- The physical values, in mA or V, at raw value 0 and at full scale. The bipolar ranges have their
lower ends at negative full scale. -/
def uiScale : AnalogUIRange → Option (ℚ × ℚ)
  | .mA0To20 => some (0, 20)
  | .mA4To20 => some (4, 20)
  | .V0To10 => some (0, 10)
  | .VMinus10To10 => some (0, 10)
  | .V0To5 => some (0, 5)
  | .VMinus5To5 => some (0, 5)
  | .V1To5 => some (1, 5)
  | .V2To10 => some (2, 10)
  | .Disabled => none

/-- The raw value at full scale. -/
def fullScale : DataFormat → ℚ
  | .S5 => 16384
  | .S7 => 27648

/-- The exact physical value of a raw value: linear in the raw value. -/
def physical (s : ℚ × ℚ) (f : DataFormat) (raw : ℤ) : ℚ := s.1 + raw / fullScale f * (s.2 - s.1)

/-- The exact raw value of a physical value. -/
def exactRaw (s : ℚ × ℚ) (f : DataFormat) (v : ℚ) : ℚ := (v - s.1) / (s.2 - s.1) * fullScale f

/-- The order of single precision numbers; NaN is not comparable. -/
def F32Le : F32 → F32 → Prop
  | .nan, _ => False
  | _, .nan => False
  | .inf true, _ => True
  | _, .inf false => True
  | .fin p, .fin q => p ≤ q
  | _, _ => False

/-- The current ranges as ranges of current or voltage. -/
def currentRange : AnalogIRange → AnalogUIRange
  | .mA0To20 => .mA0To20
  | .mA4To20 => .mA4To20
  | .Disabled => .Disabled

/-- Range and format of the channels of a module with analog outputs. -/
def analogOutputs : Module → Option (List (AnalogUIRange × DataFormat))
  | .ao m => some (m.chParams.map fun c => (c.outputRange, c.dataFormat))
  | .aoDiag m => some (m.chParams.map fun c => (c.outputRange, c.dataFormat))
  | _ => none

/-- Range and format of the channels of a module with analog inputs for current or voltage. -/
def analogInputs : Module → Option (List (AnalogUIRange × DataFormat))
  | .ai m => some (m.chParams.map fun c => (c.measurementRange, c.dataFormat))
  | .aiDiag m => some (m.chParams.map fun c => (c.measurementRange, c.dataFormat))
  | .aiI m => some (m.chParams.map fun c => (currentRange c.measurementRange, c.dataFormat))
  | _ => none

/-- What `v` has to be for a channel with the given range and format and register `w`: `Disabled`
for a disabled channel, else a finite number. It is the exact physical value in format S5, the
nearest single precision number for ranges starting at 0, and has a relative error of at most
`2 ^ -23` of the sum of its two terms for the other ranges. -/
def AnalogReading (p : AnalogUIRange × DataFormat) (w : Word) (v : ChannelValue) : Prop :=
  match uiScale p.1 with
  | none => v = .disabled
  | some s => ∃ q, v = .decimal32 (.fin q) ∧ Single q ∧
      (p.2 = .S5 → q = physical s p.2 w.toInt) ∧
      (s.1 = 0 → IsNearest q (physical s p.2 w.toInt)) ∧
      |q - physical s p.2 w.toInt| ≤ (|physical s p.2 w.toInt - s.1| + s.1) / 2 ^ 23

/-- What the raw value `z` has to be for a channel with the given range and format and a number `v`:
0 for a disabled channel and for NaN, saturated at the ends of the 16-bit range, and else the exact
raw value with its fraction cut off, up to rounding errors of a sixteenth. -/
def EncodedAs (p : AnalogUIRange × DataFormat) (v : F32) (z : ℤ) : Prop :=
  match uiScale p.1 with
  | none => z = 0
  | some s =>
    (v = .nan → z = 0) ∧ (v = .inf false → z = 32767) ∧ (v = .inf true → z = -32768) ∧
    ∀ q, v = .fin q → Single q →
      (32768 ≤ exactRaw s p.2 q → z = 32767) ∧
      (exactRaw s p.2 q ≤ -32769 → z = -32768) ∧
      (-32769 < exactRaw s p.2 q → exactRaw s p.2 q < 32768 →
        |(z : ℚ) - exactRaw s p.2 q| < 1 + 1 / 16 ∧ |(z : ℚ)| ≤ |exactRaw s p.2 q| + 1 / 16)

/-- The exact reading of a resistance thermometer channel: tenths of the temperature unit as a
signed number, or the fraction of 27648 of the resistance range as an unsigned number. -/
def rtdExact : RtdRange → Option (Word → ℚ)
  | .PT100 | .PT200 | .PT500 | .PT1000 | .NI100 | .NI120 | .NI200 | .NI500 | .NI1000 | .Cu10 =>
    some fun w => w.toInt / 10
  | .R40 => some fun w => 40 * w.toNat / 27648
  | .R80 => some fun w => 80 * w.toNat / 27648
  | .R150 => some fun w => 150 * w.toNat / 27648
  | .R300 => some fun w => 300 * w.toNat / 27648
  | .R500 => some fun w => 500 * w.toNat / 27648
  | .R1000 => some fun w => 1000 * w.toNat / 27648
  | .R2000 => some fun w => 2000 * w.toNat / 27648
  | .R4000 => some fun w => 4000 * w.toNat / 27648
  | .Disabled => none

/-- The end of a voltage range of the thermocouple module, in volts. -/
def tcVolts : TcRange → Option ℚ
  | .uVPlusMinus15625 => some (15625 / 1000000)
  | .uVPlusMinus31250 => some (31250 / 1000000)
  | .uVPlusMinus62500 => some (62500 / 1000000)
  | .mVPlusMinus125 => some (125 / 1000)
  | .mVPlusMinus250 => some (250 / 1000)
  | .mVPlusMinus500 => some (500 / 1000)
  | .VPlusMinus1 => some 1
  | .VPlusMinus2 => some 2
  | _ => none

end Ur20.Spec
