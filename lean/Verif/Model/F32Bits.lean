import Verif.Model.Fcnt
import Verif.Model.AnalogIn

/-!
# Single precision numbers as bit patterns

`Verif/Model/F32.lean` represents an `f32` by its value and so does not tell the two zeros or the
NaNs apart. Here an `f32` is the 32 bits Rust stores: a sign, an exponent and a fraction. The
operations are those of IEEE-754 with the sign rules for zeros. The float computations of the crate
are written a second time on bit patterns; `Verif/Props/FloatBits.lean` relates the two.
Simplification: an operation that has a NaN as its result returns one fixed NaN (Rust does not
specify which).
-/

namespace Ur20

/-- An `f32`. -/
structure FB where
  bits : BitVec 32
  deriving DecidableEq, Repr

namespace FB

/-- The sign bit. -/
def sign (x : FB) : Bool := decide (2 ^ 31 ≤ x.bits.toNat)

/-- The eight bits of the exponent. -/
def expo (x : FB) : Nat := x.bits.toNat / 2 ^ 23 % 256

/-- The 23 bits of the fraction. -/
def frac (x : FB) : Nat := x.bits.toNat % 2 ^ 23

/-- The bit pattern with these fields. -/
def make (neg : Bool) (e f : Nat) : FB :=
  ⟨BitVec.ofNat 32 ((if neg then 2 ^ 31 else 0) + e * 2 ^ 23 + f)⟩

/-- The number a bit pattern stands for: the exponent 255 encodes infinities and NaNs, the exponent
0 the subnormal numbers and the zeros. -/
def val (x : FB) : F32 :=
  if x.expo = 255 then (if x.frac = 0 then .inf x.sign else .nan)
  else
    let q : Rat := if x.expo = 0 then (x.frac : Rat) * pow2 (-149)
      else ((2 ^ 23 + x.frac : Nat) : Rat) * pow2 ((x.expo : Int) - 150)
    .fin (if x.sign then -q else q)

/-- The bit pattern of a number; a zero gets the given sign. -/
def of (neg : Bool) : F32 → FB
  | .nan => ⟨0x7FC00000#32⟩
  | .inf s => make s 255 0
  | .fin q =>
    if q = 0 then make neg 0 0
    else
      let k := F32.ulpExp q
      let m := (ratAbs q * pow2 (-k)).floor.toNat
      if m < 2 ^ 23 then make (decide (q < 0)) 0 m
      else make (decide (q < 0)) (k + 150).toNat (m - 2 ^ 23)

/-- `-x` changes the sign bit. -/
def neg (x : FB) : FB := make (!x.sign) x.expo x.frac

/-- `+`: a sum of zeros is negative if both are, every other zero sum is positive. -/
def add (x y : FB) : FB := of (x.sign && y.sign) (x.val + y.val)

/-- `-`. -/
def sub (x y : FB) : FB := add x (neg y)

/-- `*`: the sign is negative if exactly one factor is. -/
def mul (x y : FB) : FB := of (x.sign != y.sign) (x.val * y.val)

/-- `/`: the sign is negative if exactly one operand is, also if the divisor is a zero. -/
def div (x y : FB) : FB :=
  if y.val = .fin 0 then
    (if x.val = .nan ∨ x.val = .fin 0 then of false .nan else of false (.inf (x.sign != y.sign)))
  else of (x.sign != y.sign) (x.val / y.val)

instance : Add FB := ⟨add⟩
instance : Sub FB := ⟨sub⟩
instance : Mul FB := ⟨mul⟩
instance : Div FB := ⟨div⟩

/-- A literal that is not negative, or the conversion of an integer. -/
def lit (q : Rat) : FB := of false (F32.round q)

/-- `v as i16`. -/
def toI16 (v : FB) : Int := v.val.toI16

/-- `==` on `f32`: NaNs differ from everything, the zeros are equal. -/
def eq (x y : FB) : Bool := decide (x.val ≠ .nan ∧ x.val = y.val)

/-- `f32::from(data as i16)`. -/
def ofWord (w : Word) : FB := lit (w.toInt : Rat)

/-- `v as i16 as u16`. -/
def toWord (v : FB) : Word := BitVec.ofInt 16 v.toI16

/-- `DataFormat::factor`, `src/lib.rs:33-34` and `src/lib.rs:206-213`. -/
def factor : DataFormat → FB
  | .S5 => lit 16384
  | .S7 => lit 27648

/-- `analog_ui_value_to_u16`, `src/util.rs:55-69`. -/
def analogUiValueToU16 (v : FB) (range : AnalogUIRange) (format : DataFormat) : Word :=
  let factor := factor format
  let v := match range with
    | .mA0To20 => factor * v / lit 20
    | .mA4To20 => factor * (v - lit 4) / lit 16
    | .V0To10 | .VMinus10To10 => factor * v / lit 10
    | .V0To5 | .VMinus5To5 => factor * v / lit 5
    | .V1To5 => factor * (v - lit 1) / lit 4
    | .V2To10 => factor * (v - lit 2) / lit 8
    | .Disabled => lit 0
  toWord v

/-- `u16_to_analog_ui_value`, `src/util.rs:71-89`. -/
def u16ToAnalogUiValue (data : Word) (range : AnalogUIRange) (format : DataFormat) : Option FB :=
  let factor := factor format
  let data := ofWord data
  match range with
  | .mA0To20 => some (data * lit 20 / factor)
  | .mA4To20 => some (data * lit 16 / factor + lit 4)
  | .V0To10 | .VMinus10To10 => some (data * lit 10 / factor)
  | .V0To5 | .VMinus5To5 => some (data * lit 5 / factor)
  | .V1To5 => some (data * lit 4 / factor + lit 1)
  | .V2To10 => some (data * lit 8 / factor + lit 2)
  | .Disabled => none

/-- The `n * u32::from(data) as f32 / 0x6C00 as f32` of `src/util.rs:112`. -/
def rtdResistance (n : Rat) (data : Word) : FB :=
  lit n * lit (data.toNat : Rat) / lit 0x6C00

/-- `u16_to_rtd_value`, `src/util.rs:91-117`. -/
def u16ToRtdValue (data : Word) (range : RtdRange) : Option FB :=
  match range with
  | .PT100 | .PT200 | .PT500 | .PT1000 | .NI100 | .NI120 | .NI200 | .NI500 | .NI1000 | .Cu10 =>
    some (ofWord data / lit 10)
  | .R40 => some (rtdResistance 40 data)
  | .R80 => some (rtdResistance 80 data)
  | .R150 => some (rtdResistance 150 data)
  | .R300 => some (rtdResistance 300 data)
  | .R500 => some (rtdResistance 500 data)
  | .R1000 => some (rtdResistance 1000 data)
  | .R2000 => some (rtdResistance 2000 data)
  | .R4000 => some (rtdResistance 4000 data)
  | .Disabled => none

/-- `u16_to_thermal_value`, `src/ur20_4ai_tc_diag.rs:200-227`. -/
def u16ToThermalValue (val : Word) (range : TcRange) : Option FB :=
  let fval := ofWord val
  match range with
  | .TC_Type_J | .TC_Type_K | .TC_Type_N | .TC_Type_R | .TC_Type_S | .TC_Type_T | .TC_Type_B
  | .TC_Type_C | .TC_Type_E | .TC_Type_L | .TC_Type_U =>
    if val = 32767#16 then none else some (fval * lit (1 / 10))
  | .uVPlusMinus15625 => some (lit (15625 / 1000000) * fval / lit 32767)
  | .uVPlusMinus31250 => some (lit (31250 / 1000000) * fval / lit 32767)
  | .uVPlusMinus62500 => some (lit (62500 / 1000000) * fval / lit 32767)
  | .mVPlusMinus125 => some (lit (125 / 1000) * fval / lit 32767)
  | .mVPlusMinus250 => some (lit (250 / 1000) * fval / lit 32767)
  | .mVPlusMinus500 => some (lit (500 / 1000) * fval / lit 32767)
  | .VPlusMinus1 => some (lit 1 * fval / lit 32767)
  | .VPlusMinus2 => some (lit 2 * fval / lit 32767)
  | .Disabled => none

/-- The conversion of one value of the UR20-8AI-I-16-DIAG-HD,
`src/ur20_8ai_i_16_diag_hd.rs:93-107`. -/
def hdValue (w : Word) (range : AnalogIRange) (format : DataFormat) : Option FB :=
  let val := ofWord w
  let factor := factor format
  match range with
  | .mA0To20 => some (val * lit 20 / factor)
  | .mA4To20 => some (val * lit 16 / factor + lit 4)
  | .Disabled => none

/-- `ProcessInput::hertz`, `src/ur20_2fcnt_100.rs:34-39`. -/
def hertz (v : FcntIn) : Option FB :=
  v.duration.map fun d =>
    lit (v.count.toNat : Rat)
      / (lit ((d / 1000000000 : Nat) : Rat)
        + lit ((d % 1000000000 : Nat) : Rat) / lit 1000000000)

end FB

end Ur20
