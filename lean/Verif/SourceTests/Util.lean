import Verif.Source.Util
import Verif.SourceTests.Prelude

/-!
# The unit tests of `src/util.rs`, translated

Generated by `tools/tests2lean.py` from the source. Do not edit.
-/

set_option linter.unusedVariables false

namespace Ur20.Src.util

/-- `test_bit`, `src/util.rs:123-126`. -/
def rs_test_bit (oc : Bool) : Res Unit := do
  let t1 ← test_bit oc 2 0
  let _ ← r_assert (!t1)
  let t2 ← test_bit oc 2 1
  let _ ← r_assert t2
  pure ()

example : rs_test_bit true = .ok () ∧ rs_test_bit false = .ok () := by
  decide +kernel

/-- `set_bit`, `src/util.rs:129-132`. -/
def rs_set_bit (oc : Bool) : Res Unit := do
  let t1 ← set_bit oc 0 0
  let _ ← r_assert (decide (t1 = 1))
  let t2 ← set_bit oc 0 1
  let _ ← r_assert (decide (t2 = 2))
  pure ()

example : rs_set_bit true = .ok () ∧ rs_set_bit false = .ok () := by
  decide +kernel

/-- `u16_to_u8`, `src/util.rs:135-142`. -/
def rs_u16_to_u8 (oc : Bool) : Res Unit := do
  let t1 ← u16_to_u8 oc []
  let _ ← r_assert (decide (t1 = []))
  let t2 ← u16_to_u8 oc [43981]
  let _ ← r_assert (decide (t2 = [205, 171]))
  let t3 ← u16_to_u8 oc [171, 205]
  let _ ← r_assert (decide (t3 = [171, 0, 205, 0]))
  pure ()

example : rs_u16_to_u8 true = .ok () ∧ rs_u16_to_u8 false = .ok () := by
  decide +kernel

/-- `u8_to_u16`, `src/util.rs:145-150`. -/
def rs_u8_to_u16 (oc : Bool) : Res Unit := do
  let t1 ← u8_to_u16 oc []
  let _ ← r_assert (decide (t1 = []))
  let t2 ← u8_to_u16 oc [171]
  let _ ← r_assert (decide (t2 = [171]))
  let t3 ← u8_to_u16 oc [10, 11]
  let _ ← r_assert (decide (t3 = [2826]))
  let t4 ← u8_to_u16 oc [10, 11, 12]
  let _ ← r_assert (decide (t4 = [2826, 12]))
  pure ()

example : rs_u8_to_u16 true = .ok () ∧ rs_u8_to_u16 false = .ok () := by
  decide +kernel

/-- `shift_data`, `src/util.rs:153-155`. -/
def rs_shift_data (oc : Bool) : Res Unit := do
  let t1 ← shift_data oc [43981]
  let _ ← r_assert (decide (t1 = [171]))
  pure ()

example : rs_shift_data true = .ok () ∧ rs_shift_data false = .ok () := by
  decide +kernel

/-- `test_u16_to_analog_ui_value`, `src/util.rs:158-247`. -/
def rs_test_u16_to_analog_ui_value (oc : Bool) : Res Unit := do
  let t1 ← u16_to_analog_ui_value oc 13824 AnalogUIRange.mA0To20 DataFormat.S7
  let _ ← r_assert (decide (t1 = (some (F32.lit 10))))
  let t2 ← u16_to_analog_ui_value oc 8192 AnalogUIRange.mA0To20 DataFormat.S5
  let _ ← r_assert (decide (t2 = (some (F32.lit 10))))
  let t3 ← u16_to_analog_ui_value oc 13824 AnalogUIRange.mA4To20 DataFormat.S7
  let _ ← r_assert (decide (t3 = (some (F32.lit 12))))
  let t4 ← u16_to_analog_ui_value oc 8192 AnalogUIRange.mA4To20 DataFormat.S5
  let _ ← r_assert (decide (t4 = (some (F32.lit 12))))
  let t5 ← u16_to_analog_ui_value oc 13824 AnalogUIRange.V0To10 DataFormat.S7
  let _ ← r_assert (decide (t5 = (some (F32.lit 5))))
  let t6 ← u16_to_analog_ui_value oc 8192 AnalogUIRange.V0To10 DataFormat.S5
  let _ ← r_assert (decide (t6 = (some (F32.lit 5))))
  let t7 ← u16_to_analog_ui_value oc 13824 AnalogUIRange.VMinus10To10 DataFormat.S7
  let _ ← r_assert (decide (t7 = (some (F32.lit 5))))
  let t8 ← u16_to_analog_ui_value oc 37888 AnalogUIRange.VMinus10To10 DataFormat.S7
  let _ ← r_assert (decide (t8 = (some (F32.lit (-10)))))
  let t9 ← u16_to_analog_ui_value oc 8192 AnalogUIRange.VMinus10To10 DataFormat.S5
  let _ ← r_assert (decide (t9 = (some (F32.lit 5))))
  let t10 ← u16_to_analog_ui_value oc 13824 AnalogUIRange.V2To10 DataFormat.S7
  let _ ← r_assert (decide (t10 = (some (F32.lit 6))))
  let t11 ← u16_to_analog_ui_value oc 8192 AnalogUIRange.V2To10 DataFormat.S5
  let _ ← r_assert (decide (t11 = (some (F32.lit 6))))
  let t12 ← u16_to_analog_ui_value oc 13824 AnalogUIRange.V1To5 DataFormat.S7
  let _ ← r_assert (decide (t12 = (some (F32.lit 3))))
  let t13 ← u16_to_analog_ui_value oc 8192 AnalogUIRange.V1To5 DataFormat.S5
  let _ ← r_assert (decide (t13 = (some (F32.lit 3))))
  let t14 ← u16_to_analog_ui_value oc 13824 AnalogUIRange.V0To5 DataFormat.S7
  let _ ← r_assert (decide (t14 = (some (F32.lit (25 / 10)))))
  let t15 ← u16_to_analog_ui_value oc 8192 AnalogUIRange.V0To5 DataFormat.S5
  let _ ← r_assert (decide (t15 = (some (F32.lit (25 / 10)))))
  let t16 ← u16_to_analog_ui_value oc 13824 AnalogUIRange.VMinus5To5 DataFormat.S7
  let _ ← r_assert (decide (t16 = (some (F32.lit (25 / 10)))))
  let t17 ← u16_to_analog_ui_value oc 51712 AnalogUIRange.VMinus5To5 DataFormat.S7
  let _ ← r_assert (decide (t17 = (some (F32.lit (-25 / 10)))))
  let t18 ← u16_to_analog_ui_value oc 8192 AnalogUIRange.VMinus5To5 DataFormat.S5
  let _ ← r_assert (decide (t18 = (some (F32.lit (25 / 10)))))
  let t19 ← u16_to_analog_ui_value oc 57344 AnalogUIRange.VMinus5To5 DataFormat.S5
  let _ ← r_assert (decide (t19 = (some (F32.lit (-25 / 10)))))
  let t20 ← u16_to_analog_ui_value oc 57344 AnalogUIRange.Disabled DataFormat.S5
  let _ ← r_assert (decide (t20 = none))
  pure ()

example : rs_test_u16_to_analog_ui_value true = .ok () ∧ rs_test_u16_to_analog_ui_value false = .ok () := by
  decide +kernel

/-- `test_analog_ui_value_to_u16`, `src/util.rs:250-260`. -/
def rs_test_analog_ui_value_to_u16 (oc : Bool) : Res Unit := do
  let t1 ← analog_ui_value_to_u16 oc (F32.lit 10) AnalogUIRange.mA0To20 DataFormat.S7
  let _ ← r_assert (decide (t1 = 13824))
  let t2 ← analog_ui_value_to_u16 oc (F32.lit (-10)) AnalogUIRange.VMinus10To10 DataFormat.S7
  let _ ← r_assert (decide (t2 = 37888))
  pure ()

example : rs_test_analog_ui_value_to_u16 true = .ok () ∧ rs_test_analog_ui_value_to_u16 false = .ok () := by
  decide +kernel

end Ur20.Src.util
