import Verif.Source.Ur20_fbc_mod_tcp
import Verif.SourceTests.Prelude

/-!
# The unit tests of `src/ur20_fbc_mod_tcp.rs`, translated

Generated by `tools/tests2lean.py` from the source. Do not edit.
-/

set_option linter.unusedVariables false

namespace Ur20.Src.ur20_fbc_mod_tcp

/-- `test_offsets_of_process_data`, `src/ur20_fbc_mod_tcp.rs:560-579`. -/
def rs_test_offsets_of_process_data (oc : Bool) : Res Unit := do
  let t1 ← offsets_of_process_data oc []
  let _ ← r_assert (decide (t1 = []))
  let t2 ← offsets_of_process_data oc [65535, 0, 32768, 64, 32848, 65535]
  let _ ← r_assert (decide (t2 = [({ output := none, input := some 0 } : ModuleOffset), ({ output := some 32768, input := some 64 } : ModuleOffset), ({ output := some 32848, input := none } : ModuleOffset)]))
  pure ()

example : rs_test_offsets_of_process_data true = .ok () ∧ rs_test_offsets_of_process_data false = .ok () := by
  decide +kernel

/-- `test_to_regsiter_address`, `src/ur20_fbc_mod_tcp.rs:582-584`. -/
def rs_test_to_regsiter_address (oc : Bool) : Res Unit := do
  let t1 ← to_register_address oc 32939
  let _ ← r_assert (decide (t1 = (2058, 11)))
  pure ()

example : rs_test_to_regsiter_address true = .ok () ∧ rs_test_to_regsiter_address false = .ok () := by
  decide +kernel

/-- `test_to_bit_address`, `src/ur20_fbc_mod_tcp.rs:587-589`. -/
def rs_test_to_bit_address (oc : Bool) : Res Unit := do
  let t1 ← to_bit_address oc 2058 11
  let _ ← r_assert (decide (t1 = 32939))
  pure ()

example : rs_test_to_bit_address true = .ok () ∧ rs_test_to_bit_address false = .ok () := by
  decide +kernel

/-- `test_process_input_data`, `src/ur20_fbc_mod_tcp.rs:592-644`. -/
def rs_test_process_input_data (oc : Bool) : Res Unit := do
  let t1 ← ur20_4ao_ui_16.Mod.default oc
  let m0 := t1
  let t2 ← ur20_4ai_rtd_diag.Mod.default oc
  let m1 := t2
  let t3 ← ur20_di_generic.Mod.default oc ModuleType.UR20_4DI_P
  let m2 := t3
  let t4 ← ur20_di_generic.Mod.default oc ModuleType.UR20_4DI_P
  let m3 := t4
  let data : List Word := [0, 33, 0, 0, 258]
  let t5 ← r_index m1.chParams 1
  let t6 ← r_set m1.chParams 1 { t5 with measurementRange := RtdRange.PT100 }
  let m1 := { m1 with chParams := t6 }
  let mod0 := ToDyn.toDyn oc m0
  let mod1 := ToDyn.toDyn oc m1
  let mod2 := ToDyn.toDyn oc m2
  let mod3 := ToDyn.toDyn oc m3
  let t7 ← to_bit_address oc ADDR_PACKED_PROCESS_OUTPUT_DATA 0
  let addr_out_0 := t7
  let t8 ← to_bit_address oc ADDR_PACKED_PROCESS_INPUT_DATA 0
  let addr_in_1 := t8
  let t9 ← r_add oc ADDR_PACKED_PROCESS_INPUT_DATA 4
  let t10 ← to_bit_address oc t9 0
  let addr_in_2 := t10
  let t11 ← r_add oc ADDR_PACKED_PROCESS_INPUT_DATA 4
  let t12 ← to_bit_address oc t11 8
  let addr_in_3 := t12
  let o0 := ({ input := none, output := some addr_out_0 } : ModuleOffset)
  let o1 := ({ input := some addr_in_1, output := none } : ModuleOffset)
  let o2 := ({ input := some addr_in_2, output := none } : ModuleOffset)
  let o3 := ({ input := some addr_in_3, output := none } : ModuleOffset)
  let modules := [(mod0, o0), (mod1, o1), (mod2, o2), (mod3, o3)]
  let t13 ← r_unwrap (process_input_data oc modules data)
  let res := t13
  let _ ← r_assert (decide (res.length = 4))
  let t14 ← r_index res 0
  let _ ← r_assert (decide (t14.length = 4))
  let t15 ← r_index res 1
  let _ ← r_assert (decide (t15.length = 4))
  let t16 ← r_index res 2
  let _ ← r_assert (decide (t16.length = 4))
  let t17 ← r_index res 3
  let _ ← r_assert (decide (t17.length = 4))
  let t18 ← r_index res 1
  let t19 ← r_index t18 1
  let _ ← r_assert (decide (t19 = (ChannelValue.decimal32 (F32.lit (33 / 10)))))
  let t20 ← r_index res 2
  let t21 ← r_index t20 1
  let _ ← r_assert (decide (t21 = (ChannelValue.bit true)))
  let t22 ← r_index res 3
  let t23 ← r_index t22 0
  let _ ← r_assert (decide (t23 = (ChannelValue.bit true)))
  pure ()

example : rs_test_process_input_data true = .ok () ∧ rs_test_process_input_data false = .ok () := by
  decide +kernel

/-- `test_process_input_data_with_invalid_offset`, `src/ur20_fbc_mod_tcp.rs:647-659`. -/
def rs_test_process_input_data_with_invalid_offset (oc : Bool) : Res Unit := do
  let t1 ← ur20_4ai_rtd_diag.Mod.default oc
  let m0 := t1
  let data : List Word := [0, 33, 0, 0]
  let mod0 := ToDyn.toDyn oc m0
  let bit : Nat := 3
  let t2 ← to_bit_address oc ADDR_PACKED_PROCESS_INPUT_DATA bit
  let addr_in_0 := t2
  let o0 := ({ input := some addr_in_0, output := none } : ModuleOffset)
  let modules := [(mod0, o0)]
  let t3 ← r_is_err (process_input_data oc modules data)
  let _ ← r_assert t3
  pure ()

example : rs_test_process_input_data_with_invalid_offset true = .ok () ∧ rs_test_process_input_data_with_invalid_offset false = .ok () := by
  decide +kernel

/-- `test_process_input_data_with_invalid_data`, `src/ur20_fbc_mod_tcp.rs:662-680`. -/
def rs_test_process_input_data_with_invalid_data (oc : Bool) : Res Unit := do
  let t1 ← ur20_4ai_rtd_diag.Mod.default oc
  let m0 := t1
  let t2 ← ur20_4ai_rtd_diag.Mod.default oc
  let m1 := t2
  let data : List Word := [0, 33, 0, 0]
  let mod0 := ToDyn.toDyn oc m0
  let mod1 := ToDyn.toDyn oc m1
  let t3 ← to_bit_address oc ADDR_PACKED_PROCESS_INPUT_DATA 0
  let addr_in_0 := t3
  let t4 ← r_add oc ADDR_PACKED_PROCESS_INPUT_DATA 4
  let t5 ← to_bit_address oc t4 0
  let addr_in_1 := t5
  let o0 := ({ input := some addr_in_0, output := none } : ModuleOffset)
  let o1 := ({ input := some addr_in_1, output := none } : ModuleOffset)
  let modules := [(mod0, o0), (mod1, o1)]
  let t6 ← r_is_err (process_input_data oc modules data)
  let _ ← r_assert t6
  pure ()

example : rs_test_process_input_data_with_invalid_data true = .ok () ∧ rs_test_process_input_data_with_invalid_data false = .ok () := by
  decide +kernel

/-- `test_process_output_data`, `src/ur20_fbc_mod_tcp.rs:683-736`. -/
def rs_test_process_output_data (oc : Bool) : Res Unit := do
  let t1 ← ur20_4ao_ui_16.Mod.default oc
  let m0 := t1
  let t2 ← ur20_4ai_rtd_diag.Mod.default oc
  let m1 := t2
  let t3 ← ur20_do_generic.Mod.default oc ModuleType.UR20_4DO_P
  let m2 := t3
  let t4 ← ur20_do_generic.Mod.default oc ModuleType.UR20_4DO_P
  let m3 := t4
  let data : List Word := [0, 13824, 0, 0, 258]
  let t5 ← r_index m0.chParams 1
  let t6 ← r_set m0.chParams 1 { t5 with outputRange := AnalogUIRange.VMinus5To5 }
  let m0 := { m0 with chParams := t6 }
  let mod0 := ToDyn.toDyn oc m0
  let mod1 := ToDyn.toDyn oc m1
  let mod2 := ToDyn.toDyn oc m2
  let mod3 := ToDyn.toDyn oc m3
  let t7 ← to_bit_address oc ADDR_PACKED_PROCESS_OUTPUT_DATA 0
  let addr_out_0 := t7
  let t8 ← to_bit_address oc ADDR_PACKED_PROCESS_INPUT_DATA 0
  let addr_in_1 := t8
  let t9 ← r_add oc ADDR_PACKED_PROCESS_OUTPUT_DATA 4
  let t10 ← to_bit_address oc t9 0
  let addr_out_2 := t10
  let t11 ← r_add oc ADDR_PACKED_PROCESS_OUTPUT_DATA 4
  let t12 ← to_bit_address oc t11 8
  let addr_out_3 := t12
  let o0 := ({ input := none, output := some addr_out_0 } : ModuleOffset)
  let o1 := ({ input := some addr_in_1, output := none } : ModuleOffset)
  let o2 := ({ input := none, output := some addr_out_2 } : ModuleOffset)
  let o3 := ({ input := none, output := some addr_out_3 } : ModuleOffset)
  let modules := [(mod0, o0), (mod1, o1), (mod2, o2), (mod3, o3)]
  let t13 ← r_unwrap (process_output_data oc modules data)
  let res := t13
  let _ ← r_assert (decide (res.length = 4))
  let t14 ← r_index res 0
  let _ ← r_assert (decide (t14.length = 4))
  let t15 ← r_index res 1
  let _ ← r_assert (decide (t15.length = 4))
  let t16 ← r_index res 2
  let _ ← r_assert (decide (t16.length = 4))
  let t17 ← r_index res 3
  let _ ← r_assert (decide (t17.length = 4))
  let t18 ← r_index res 0
  let t19 ← r_index t18 1
  let _ ← r_assert (decide (t19 = (ChannelValue.decimal32 (F32.lit (25 / 10)))))
  let t20 ← r_index res 1
  let t21 ← r_index t20 0
  let _ ← r_assert (decide (t21 = ChannelValue.none))
  let t22 ← r_index res 2
  let t23 ← r_index t22 1
  let _ ← r_assert (decide (t23 = (ChannelValue.bit true)))
  let t24 ← r_index res 3
  let t25 ← r_index t24 0
  let _ ← r_assert (decide (t25 = (ChannelValue.bit true)))
  pure ()

example : rs_test_process_output_data true = .ok () ∧ rs_test_process_output_data false = .ok () := by
  decide +kernel

/-- `test_process_output_data_with_invalid_offset`, `src/ur20_fbc_mod_tcp.rs:739-751`. -/
def rs_test_process_output_data_with_invalid_offset (oc : Bool) : Res Unit := do
  let t1 ← ur20_4ao_ui_16.Mod.default oc
  let m0 := t1
  let data : List Word := [0, 33, 0, 0]
  let mod0 := ToDyn.toDyn oc m0
  let bit : Nat := 3
  let t2 ← to_bit_address oc ADDR_PACKED_PROCESS_OUTPUT_DATA bit
  let addr_out_0 := t2
  let o0 := ({ input := none, output := some addr_out_0 } : ModuleOffset)
  let modules := [(mod0, o0)]
  let t3 ← r_is_err (process_output_data oc modules data)
  let _ ← r_assert t3
  pure ()

example : rs_test_process_output_data_with_invalid_offset true = .ok () ∧ rs_test_process_output_data_with_invalid_offset false = .ok () := by
  decide +kernel

/-- `test_process_output_data_with_invalid_data`, `src/ur20_fbc_mod_tcp.rs:754-772`. -/
def rs_test_process_output_data_with_invalid_data (oc : Bool) : Res Unit := do
  let t1 ← ur20_4ao_ui_16.Mod.default oc
  let m0 := t1
  let t2 ← ur20_4ao_ui_16.Mod.default oc
  let m1 := t2
  let data : List Word := [0, 33, 0, 0]
  let mod0 := ToDyn.toDyn oc m0
  let mod1 := ToDyn.toDyn oc m1
  let t3 ← to_bit_address oc ADDR_PACKED_PROCESS_OUTPUT_DATA 0
  let addr_out_0 := t3
  let t4 ← r_add oc ADDR_PACKED_PROCESS_OUTPUT_DATA 4
  let t5 ← to_bit_address oc t4 0
  let addr_out_1 := t5
  let o0 := ({ input := none, output := some addr_out_0 } : ModuleOffset)
  let o1 := ({ input := none, output := some addr_out_1 } : ModuleOffset)
  let modules := [(mod0, o0), (mod1, o1)]
  let t6 ← r_is_err (process_output_data oc modules data)
  let _ ← r_assert t6
  pure ()

example : rs_test_process_output_data_with_invalid_data true = .ok () ∧ rs_test_process_output_data_with_invalid_data false = .ok () := by
  decide +kernel

/-- `test_process_output_values_with_invalid_len`, `src/ur20_fbc_mod_tcp.rs:775-804`. -/
def rs_test_process_output_values_with_invalid_len (oc : Bool) : Res Unit := do
  let t1 ← ur20_4ao_ui_16.Mod.default oc
  let m0 := t1
  let t2 ← ur20_4ai_rtd_diag.Mod.default oc
  let m1 := t2
  let values := [[ChannelValue.decimal32 (F32.lit 15), ChannelValue.decimal32 (F32.lit 20), ChannelValue.decimal32 (F32.lit 20), ChannelValue.decimal32 (F32.lit 10)]]
  let mod0 := ToDyn.toDyn oc m0
  let mod1 := ToDyn.toDyn oc m1
  let t3 ← to_bit_address oc ADDR_PACKED_PROCESS_OUTPUT_DATA 0
  let addr_out_0 := t3
  let t4 ← to_bit_address oc ADDR_PACKED_PROCESS_INPUT_DATA 0
  let addr_in_1 := t4
  let o0 := ({ input := none, output := some addr_out_0 } : ModuleOffset)
  let o1 := ({ input := some addr_in_1, output := none } : ModuleOffset)
  let modules := [(mod0, o0), (mod1, o1)]
  let t5 ← r_is_err (process_output_values oc modules values)
  let _ ← r_assert t5
  pure ()

example : rs_test_process_output_values_with_invalid_len true = .ok () ∧ rs_test_process_output_values_with_invalid_len false = .ok () := by
  decide +kernel

/-- `test_process_output_values_with_invalid_offset_a`, `src/ur20_fbc_mod_tcp.rs:807-838`. -/
def rs_test_process_output_values_with_invalid_offset_a (oc : Bool) : Res Unit := do
  let t1 ← ur20_4ao_ui_16.Mod.default oc
  let m0 := t1
  let t2 ← ur20_4ai_rtd_diag.Mod.default oc
  let m1 := t2
  let values := [[ChannelValue.decimal32 (F32.lit 15), ChannelValue.decimal32 (F32.lit 20), ChannelValue.decimal32 (F32.lit 20), ChannelValue.decimal32 (F32.lit 10)], []]
  let mod0 := ToDyn.toDyn oc m0
  let mod1 := ToDyn.toDyn oc m1
  let t3 ← r_add oc ADDR_PACKED_PROCESS_OUTPUT_DATA 10
  let t4 ← to_bit_address oc t3 0
  let addr_out_0 := t4
  let t5 ← to_bit_address oc ADDR_PACKED_PROCESS_INPUT_DATA 0
  let addr_in_1 := t5
  let o0 := ({ input := none, output := some addr_out_0 } : ModuleOffset)
  let o1 := ({ input := some addr_in_1, output := none } : ModuleOffset)
  let modules := [(mod0, o0), (mod1, o1)]
  let t6 ← r_is_err (process_output_values oc modules values)
  let _ ← r_assert t6
  pure ()

example : rs_test_process_output_values_with_invalid_offset_a true = .ok () ∧ rs_test_process_output_values_with_invalid_offset_a false = .ok () := by
  decide +kernel

/-- `test_process_output_values_with_invalid_offset_b`, `src/ur20_fbc_mod_tcp.rs:841-885`. -/
def rs_test_process_output_values_with_invalid_offset_b (oc : Bool) : Res Unit := do
  let t1 ← ur20_4ao_ui_16.Mod.default oc
  let m0 := t1
  let t2 ← ur20_4ai_rtd_diag.Mod.default oc
  let m1 := t2
  let t3 ← ur20_do_generic.Mod.default oc ModuleType.UR20_4DO_P
  let m2 := t3
  let values := [[ChannelValue.decimal32 (F32.lit 15), ChannelValue.decimal32 (F32.lit 20), ChannelValue.decimal32 (F32.lit 20), ChannelValue.decimal32 (F32.lit 10)], [], [ChannelValue.bit false, ChannelValue.bit false, ChannelValue.bit false, ChannelValue.bit false]]
  let mod0 := ToDyn.toDyn oc m0
  let mod1 := ToDyn.toDyn oc m1
  let mod2 := ToDyn.toDyn oc m2
  let t4 ← to_bit_address oc ADDR_PACKED_PROCESS_OUTPUT_DATA 0
  let addr_out_0 := t4
  let t5 ← to_bit_address oc ADDR_PACKED_PROCESS_INPUT_DATA 0
  let addr_in_1 := t5
  let t6 ← r_add oc ADDR_PACKED_PROCESS_OUTPUT_DATA 1
  let t7 ← to_bit_address oc t6 8
  let addr_out_2 := t7
  let o0 := ({ input := none, output := some addr_out_0 } : ModuleOffset)
  let o1 := ({ input := some addr_in_1, output := none } : ModuleOffset)
  let o2 := ({ input := none, output := some addr_out_2 } : ModuleOffset)
  let modules := [(mod0, o0), (mod1, o1), (mod2, o2)]
  let t8 ← r_is_err (process_output_values oc modules values)
  let _ ← r_assert t8
  pure ()

example : rs_test_process_output_values_with_invalid_offset_b true = .ok () ∧ rs_test_process_output_values_with_invalid_offset_b false = .ok () := by
  decide +kernel

/-- `test_process_output_values_with_invalid_offset_c`, `src/ur20_fbc_mod_tcp.rs:888-904`. -/
def rs_test_process_output_values_with_invalid_offset_c (oc : Bool) : Res Unit := do
  let t1 ← ur20_4ao_ui_16.Mod.default oc
  let m0 := t1
  let values := [[ChannelValue.decimal32 (F32.lit 15), ChannelValue.decimal32 (F32.lit 20), ChannelValue.decimal32 (F32.lit 20), ChannelValue.decimal32 (F32.lit 10)]]
  let mod0 := ToDyn.toDyn oc m0
  let t2 ← to_bit_address oc 0 0
  let addr_out_0 := t2
  let o0 := ({ input := none, output := some addr_out_0 } : ModuleOffset)
  let modules := [(mod0, o0)]
  let t3 ← r_is_err (process_output_values oc modules values)
  let _ ← r_assert t3
  pure ()

example : rs_test_process_output_values_with_invalid_offset_c true = .ok () ∧ rs_test_process_output_values_with_invalid_offset_c false = .ok () := by
  decide +kernel

/-- `test_process_output_values`, `src/ur20_fbc_mod_tcp.rs:907-974`. -/
def rs_test_process_output_values (oc : Bool) : Res Unit := do
  let t1 ← ur20_4ao_ui_16.Mod.default oc
  let m0 := t1
  let t2 ← ur20_4ai_rtd_diag.Mod.default oc
  let m1 := t2
  let t3 ← ur20_do_generic.Mod.default oc ModuleType.UR20_4DO_P
  let m2 := t3
  let t4 ← ur20_do_generic.Mod.default oc ModuleType.UR20_4DO_P
  let m3 := t4
  let values := [[ChannelValue.decimal32 (F32.lit 15), ChannelValue.decimal32 (F32.lit 20), ChannelValue.decimal32 (F32.lit 20), ChannelValue.decimal32 (F32.lit 10)], [], [ChannelValue.bit false, ChannelValue.bit true, ChannelValue.bit false, ChannelValue.bit false], [ChannelValue.bit false, ChannelValue.bit false, ChannelValue.bit true, ChannelValue.bit true]]
  let t5 ← r_index m0.chParams 1
  let t6 ← r_set m0.chParams 1 { t5 with outputRange := AnalogUIRange.mA0To20 }
  let m0 := { m0 with chParams := t6 }
  let t7 ← r_index m0.chParams 3
  let t8 ← r_set m0.chParams 3 { t7 with outputRange := AnalogUIRange.mA0To20 }
  let m0 := { m0 with chParams := t8 }
  let mod0 := ToDyn.toDyn oc m0
  let mod1 := ToDyn.toDyn oc m1
  let mod2 := ToDyn.toDyn oc m2
  let mod3 := ToDyn.toDyn oc m3
  let t9 ← to_bit_address oc ADDR_PACKED_PROCESS_OUTPUT_DATA 0
  let addr_out_0 := t9
  let t10 ← to_bit_address oc ADDR_PACKED_PROCESS_INPUT_DATA 0
  let addr_in_1 := t10
  let t11 ← r_add oc ADDR_PACKED_PROCESS_OUTPUT_DATA 4
  let t12 ← to_bit_address oc t11 0
  let addr_out_2 := t12
  let t13 ← r_add oc ADDR_PACKED_PROCESS_OUTPUT_DATA 4
  let t14 ← to_bit_address oc t13 8
  let addr_out_3 := t14
  let o0 := ({ input := none, output := some addr_out_0 } : ModuleOffset)
  let o1 := ({ input := some addr_in_1, output := none } : ModuleOffset)
  let o2 := ({ input := none, output := some addr_out_2 } : ModuleOffset)
  let o3 := ({ input := none, output := some addr_out_3 } : ModuleOffset)
  let modules := [(mod0, o0), (mod1, o1), (mod2, o2), (mod3, o3)]
  let t15 ← r_unwrap (process_output_values oc modules values)
  let res := t15
  let _ ← r_assert (decide (res.length = 5))
  let t16 ← r_index res 0
  let _ ← r_assert (decide (t16 = 0))
  let t17 ← r_index res 1
  let _ ← r_assert (decide (t17 = 27648))
  let t18 ← r_index res 2
  let _ ← r_assert (decide (t18 = 0))
  let t19 ← r_index res 3
  let _ ← r_assert (decide (t19 = 13824))
  let t20 ← r_index res 4
  let _ ← r_assert (decide (t20 = 3074))
  pure ()

example : rs_test_process_output_values true = .ok () ∧ rs_test_process_output_values false = .ok () := by
  decide +kernel

/-- `test_param_addresses_and_register_counts`, `src/ur20_fbc_mod_tcp.rs:977-991`. -/
def rs_test_param_addresses_and_register_counts (oc : Bool) : Res Unit := do
  let t1 ← param_addresses_and_register_counts oc []
  let _ ← r_assert (decide (t1 = []))
  let t2 ← param_addresses_and_register_counts oc [ModuleType.UR20_4DI_P]
  let _ ← r_assert (decide (t2 = [(49152, 4)]))
  let t3 ← param_addresses_and_register_counts oc [ModuleType.UR20_4DI_P, ModuleType.UR20_4DO_P, ModuleType.UR20_4AI_RTD_DIAG]
  let _ ← r_assert (decide (t3 = [(49152, 4), (49408, 4), (49664, 29)]))
  pure ()

example : rs_test_param_addresses_and_register_counts true = .ok () ∧ rs_test_param_addresses_and_register_counts false = .ok () := by
  decide +kernel

/-- `validate_coupler_config_data`, `src/ur20_fbc_mod_tcp.rs:994-1040`. -/
def rs_validate_coupler_config_data (oc : Bool) : Res Unit := do
  let t1 ← r_is_ok (CouplerConfig.validate oc ({ modules := [], offsets := [], params := [] } : CouplerConfig))
  let _ ← r_assert t1
  let t2 ← r_is_ok (CouplerConfig.validate oc ({ modules := [ModuleType.UR20_4DI_P], offsets := [65535, 0], params := [List.replicate 4 0] } : CouplerConfig))
  let _ ← r_assert t2
  let t3 ← r_is_err (CouplerConfig.validate oc ({ modules := [ModuleType.UR20_4DI_P], offsets := [65535, 0], params := [] } : CouplerConfig))
  let _ ← r_assert t3
  let t4 ← r_is_err (CouplerConfig.validate oc ({ modules := [ModuleType.UR20_4DI_P], offsets := [], params := [List.replicate 4 0] } : CouplerConfig))
  let _ ← r_assert t4
  let t5 ← r_is_err (CouplerConfig.validate oc ({ modules := [ModuleType.UR20_4DI_P], offsets := [65535], params := [] } : CouplerConfig))
  let _ ← r_assert t5
  pure ()

example : rs_validate_coupler_config_data true = .ok () ∧ rs_validate_coupler_config_data false = .ok () := by
  decide +kernel

/-- `create_new_coupler_instance`, `src/ur20_fbc_mod_tcp.rs:1043-1061`. -/
def rs_create_new_coupler_instance (oc : Bool) : Res Unit := do
  let cfg := ({ modules := [ModuleType.UR20_4DI_P, ModuleType.UR20_1COM_232_485_422], offsets := [65535, 0, 32768, 8], params := [List.replicate 4 0, List.replicate 10 0] } : CouplerConfig)
  let invalid_cfg := cfg
  let invalid_cfg := { invalid_cfg with params := [] }
  let t1 ← r_unwrap (Coupler.new oc cfg)
  let c := t1
  let t2 ← r_is_err (Coupler.new oc invalid_cfg)
  let _ ← r_assert t2
  let _ ← r_assert (decide (c.modules.length = 2))
  let _ ← r_assert (decide (c.processors.length = 1))
  let _ ← r_assert (decide (c.offsets.length = 2))
  let _ ← r_assert (decide (c.inValues.length = 0))
  let _ ← r_assert (decide (c.outValues.length = 0))
  let _ ← r_assert (decide (c.write.length = 0))
  pure ()

example : rs_create_new_coupler_instance true = .ok () ∧ rs_create_new_coupler_instance false = .ok () := by
  decide +kernel

/-- `process_in_out_data_with_coupler`, `src/ur20_fbc_mod_tcp.rs:1064-1224`. -/
def rs_process_in_out_data_with_coupler (oc : Bool) : Res Unit := do
  let t1 ← to_bit_address oc 2049 0
  let t2 ← to_bit_address oc 1 0
  let t3 ← r_unwrap_opt (ToPrimitive.to_u16 ProcessDataLength.EightBytes)
  let t4 ← r_unwrap_opt (ToPrimitive.to_u16 OperatingMode.RS232)
  let cfg := ({ modules := [ModuleType.UR20_4DI_P, ModuleType.UR20_4DO_P, ModuleType.UR20_1COM_232_485_422], offsets := [65535, 0, 32768, 65535, t1, t2], params := [List.replicate 4 0, List.replicate 4 0, [t3, t4, 0, 0, 0, 0, 0, 0, 0, 0]] } : CouplerConfig)
  let t5 ← r_unwrap (Coupler.new oc cfg)
  let c := t5
  let process_input_data : List Word := [5, 1265, 0, 43981, 0]
  let process_output_data : List Word := [12, 0, 0, 0, 0, 0, 0, 0, 0, 0]
  let t6 ← r_ex_unwrap (Coupler.next oc c process_input_data process_output_data r_any_order r_any_order)
  let c := t6.1
  let process_output_data := t6.2
  let t7 ← r_ex_unwrap (Coupler.next oc c process_input_data process_output_data r_any_order r_any_order)
  let c := t7.1
  let process_output_data := t7.2
  let t8 ← r_ex_unwrap (Coupler.next oc c process_input_data process_output_data r_any_order r_any_order)
  let c := t8.1
  let process_output_data := t8.2
  let _ ← (do
        let t9 ← Coupler.inputs oc c
        let inputs := t9
        let t10 ← Coupler.outputs oc c
        let outputs := t10
        let _ ← r_assert (decide (inputs.length = 3))
        let _ ← r_assert (decide (outputs.length = 3))
        let t11 ← r_index inputs 0
        let _ ← r_assert (decide (t11.length = 4))
        let t12 ← r_index outputs 0
        let _ ← r_assert (decide (t12.length = 4))
        let t13 ← r_index inputs 0
        let t14 ← r_index t13 0
        let _ ← r_assert (decide (t14 = (ChannelValue.bit true)))
        let t15 ← r_index inputs 0
        let t16 ← r_index t15 1
        let _ ← r_assert (decide (t16 = (ChannelValue.bit false)))
        let t17 ← r_index inputs 0
        let t18 ← r_index t17 2
        let _ ← r_assert (decide (t18 = (ChannelValue.bit true)))
        let t19 ← r_index inputs 0
        let t20 ← r_index t19 3
        let _ ← r_assert (decide (t20 = (ChannelValue.bit false)))
        let t21 ← r_index outputs 1
        let t22 ← r_index t21 0
        let _ ← r_assert (decide (t22 = (ChannelValue.bit false)))
        let t23 ← r_index outputs 1
        let t24 ← r_index t23 1
        let _ ← r_assert (decide (t24 = (ChannelValue.bit false)))
        let t25 ← r_index outputs 1
        let t26 ← r_index t25 2
        let _ ← r_assert (decide (t26 = (ChannelValue.bit true)))
        let t27 ← r_index outputs 1
        let t28 ← r_index t27 3
        let _ ← r_assert (decide (t28 = (ChannelValue.bit true)))
        let t29 ← r_index outputs 0
        let _ ← r_assert (decide (t29 = (List.replicate 4 ChannelValue.none)))
        let t30 ← r_index inputs 1
        let _ ← r_assert (decide (t30 = (List.replicate 4 ChannelValue.none)))
        let t31 ← r_index inputs 2
        let _ ← r_assert (decide (t31 = [ChannelValue.bytes [0, 0, 205, 171]]))
        let t32 ← r_index outputs 2
        let _ ← r_assert (decide (t32 = [ChannelValue.none]))
        pure ())
  let t33 ← r_ex_unwrap (Coupler.set_output oc c ({ module := 2, channel := 0 } : Address) (ChannelValue.bytes (r_to_vec [72, 101, 108, 108, 111, 32, 109, 111, 100, 98, 117, 115, 32, 99, 111, 117, 112, 108, 101, 114, 33])))
  let c := t33.1
  let t34 ← r_ex_unwrap (Coupler.set_output oc c ({ module := 1, channel := 1 } : Address) (ChannelValue.bit true))
  let c := t34.1
  let t35 ← r_ex_is_err (Coupler.set_output oc c ({ module := 3, channel := 0 } : Address) (ChannelValue.bit true))
  let c := t35.1
  let _ ← r_assert t35.2
  let t36 ← r_ex_is_err (Coupler.set_output oc c ({ module := 2, channel := 1 } : Address) (ChannelValue.bit true))
  let c := t36.1
  let _ ← r_assert t36.2
  let _ ← r_assert (decide (c.write.length = 2))
  let process_input_data : List Word := [5, 0, 0, 0, 0]
  let t37 ← r_ex_unwrap (Coupler.next oc c process_input_data process_output_data r_any_order r_any_order)
  let c := t37.1
  let process_output_data := t37.2
  let _ ← r_assert (decide (c.write.length = 0))
  let _ ← (do
        let t38 ← Coupler.inputs oc c
        let inputs := t38
        let t39 ← Coupler.outputs oc c
        let outputs := t39
        let t40 ← r_index outputs 1
        let t41 ← r_index t40 1
        let _ ← r_assert (decide (t41 = (ChannelValue.bit false)))
        let t42 ← r_index inputs 2
        let t43 ← r_index t42 0
        let _ ← r_assert (decide (t43 = ChannelValue.none))
        let t44 ← r_index outputs 2
        let t45 ← r_index t44 0
        let _ ← r_assert (decide (t45 = ChannelValue.none))
        pure ())
  let t46 ← r_ex_unwrap (Coupler.next oc c process_input_data process_output_data r_any_order r_any_order)
  let c := t46.1
  let process_output_data := t46.2
  let _ ← (do
        let t47 ← Coupler.inputs oc c
        let inputs := t47
        let t48 ← Coupler.outputs oc c
        let outputs := t48
        let t49 ← r_index outputs 1
        let t50 ← r_index t49 1
        let _ ← r_assert (decide (t50 = (ChannelValue.bit true)))
        let t51 ← r_index inputs 2
        let t52 ← r_index t51 0
        let _ ← r_assert (decide (t52 = ChannelValue.none))
        let t53 ← r_index outputs 2
        let t54 ← r_index t53 0
        let _ ← r_assert (decide (t54 = (ChannelValue.bytes (r_to_vec [72, 101, 108, 108, 111, 32]))))
        pure ())
  let t55 ← r_ex_unwrap (Coupler.next oc c process_input_data process_output_data r_any_order r_any_order)
  let c := t55.1
  let process_output_data := t55.2
  let _ ← (do
        let t56 ← Coupler.outputs oc c
        let outputs := t56
        let t57 ← r_index outputs 2
        let t58 ← r_index t57 0
        let _ ← r_assert (decide (t58 = ChannelValue.none))
        pure ())
  let process_input_data : List Word := [5, 1529, 56814, 65535, 170]
  let t59 ← r_ex_unwrap (Coupler.next oc c process_input_data process_output_data r_any_order r_any_order)
  let c := t59.1
  let _process_output_data := t59.2
  let _ ← r_assert ((r_get c.processors 0).isNone)
  let _ ← r_assert ((r_get c.processors 1).isNone)
  let _ ← r_assert ((r_get c.processors 2).isSome)
  let _ ← r_assert ((r_get c.processors 0).isNone)
  let _ ← r_assert ((r_get c.processors 1).isNone)
  let _ ← r_assert ((r_get c.processors 2).isSome)
  let buf : List Byte := List.replicate 20 0
  let reader ← r_unwrap_opt (r_get c.processors 2)
  let t60 ← r_unwrap (ur20_1com_232_485_422.MessageProcessor.read oc reader buf)
  let reader := t60.1
  let c := { c with processors := r_insert c.processors 2 reader }
  let buf := t60.2.1
  let len_0 := t60.2.2
  let t61 ← r_unwrap (ur20_1com_232_485_422.MessageProcessor.read oc reader buf)
  let reader := t61.1
  let c := { c with processors := r_insert c.processors 2 reader }
  let buf := t61.2.1
  let len_1 := t61.2.2
  let _ ← r_assert (decide (len_0 = 9))
  let _ ← r_assert (decide (len_1 = 0))
  let t62 ← r_slice buf 0 9
  let _ ← r_assert (decide (t62 = [0, 0, 205, 171, 238, 221, 255, 255, 170]))
  pure ()

example : rs_process_in_out_data_with_coupler true = .ok () ∧ rs_process_in_out_data_with_coupler false = .ok () := by
  decide +kernel

/-- `test_module_list_from_registers`, `src/ur20_fbc_mod_tcp.rs:1227-1240`. -/
def rs_test_module_list_from_registers (oc : Bool) : Res Unit := do
  let t1 ← r_unwrap_err (module_list_from_registers oc [])
  let _ ← r_assert (decide (t1 = Error.registerCount))
  let t2 ← r_unwrap_err (module_list_from_registers oc [43788])
  let _ ← r_assert (decide (t2 = Error.registerCount))
  let t3 ← r_unwrap (module_list_from_registers oc [257, 12192])
  let _ ← r_assert (decide (t3 = [ModuleType.UR20_4DO_P]))
  pure ()

example : rs_test_module_list_from_registers true = .ok () ∧ rs_test_module_list_from_registers false = .ok () := by
  decide +kernel

end Ur20.Src.ur20_fbc_mod_tcp
