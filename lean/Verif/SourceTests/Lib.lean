import Verif.Source.Lib
import Verif.SourceTests.Prelude

/-!
# The unit tests of `src/lib.rs`, translated

Generated by `tools/tests2lean.py` from the source. Do not edit.
-/

set_option linter.unusedVariables false

namespace Ur20.Src.lib

/-- `module_by_u32_id`, `src/lib.rs:733-742`. -/
def rs_module_by_u32_id (oc : Bool) : Res Unit := do
  let t1 ← r_unwrap (ModuleType.try_from_u32 oc 84223328)
  let _ ← r_assert (decide (t1 = ModuleType.UR20_4AO_UI_16_M_DIAG))
  let t2 ← r_unwrap_err (ModuleType.try_from_u32 oc 19088743)
  let _ ← r_assert (decide (t2 = Error.unknownModule))
  pure ()

example : rs_module_by_u32_id true = .ok () ∧ rs_module_by_u32_id false = .ok () := by
  decide +kernel

/-- `module_by_str_id`, `src/lib.rs:745-762`. -/
def rs_module_by_str_id (oc : Bool) : Res Unit := do
  let t1 ← r_unwrap (ModuleType.from_str oc "UR20_1COM_232_485_422" r_ascii_upper)
  let _ ← r_assert (decide (t1 = ModuleType.UR20_1COM_232_485_422))
  let t2 ← r_unwrap (ModuleType.from_str oc "UR20-1COM-232-485-422" r_ascii_upper)
  let _ ← r_assert (decide (t2 = ModuleType.UR20_1COM_232_485_422))
  let t3 ← r_unwrap (ModuleType.from_str oc "ur20-1com-232-485-422" r_ascii_upper)
  let _ ← r_assert (decide (t3 = ModuleType.UR20_1COM_232_485_422))
  let t4 ← r_unwrap_err (ModuleType.from_str oc "not-valid" r_ascii_upper)
  let _ ← r_assert (decide (t4 = Error.unknownModule))
  pure ()

example : rs_module_by_str_id true = .ok () ∧ rs_module_by_str_id false = .ok () := by
  decide +kernel

/-- `category_by_str_id`, `src/lib.rs:765-775`. -/
def rs_category_by_str_id (oc : Bool) : Res Unit := do
  let t1 ← r_unwrap (ModuleCategory.from_str oc "RTD" r_ascii_upper)
  let _ ← r_assert (decide (t1 = ModuleCategory.RTD))
  let t2 ← r_unwrap (ModuleCategory.from_str oc "rtd" r_ascii_upper)
  let _ ← r_assert (decide (t2 = ModuleCategory.RTD))
  let t3 ← r_unwrap (ModuleCategory.from_str oc "aO" r_ascii_upper)
  let _ ← r_assert (decide (t3 = ModuleCategory.AO))
  pure ()

example : rs_category_by_str_id true = .ok () ∧ rs_category_by_str_id false = .ok () := by
  decide +kernel

end Ur20.Src.lib
