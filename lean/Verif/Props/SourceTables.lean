import Verif.Lemmas.SourceCoupler

/-!
# C136: discovery, names and conversions of the translated source are those of the model
-/

namespace Ur20

open Src

/-- C136: the module list, the addresses of the parameters and the check of a configuration. -/
theorem C136_discovery (oc : Bool) :
    (∀ ws, ur20_fbc_mod_tcp.module_list_from_registers oc ws = moduleListFromRegisters ws) ∧
    (∀ ms, (ur20_fbc_mod_tcp.param_addresses_and_register_counts oc ms).map
        (List.map fun p => (p.1, p.2.toNat)) = paramAddressesAndRegisterCounts oc ms) ∧
    (∀ t, (ur20_fbc_mod_tcp.ModuleType.param_register_count oc t).map BitVec.toNat =
        paramRegisterCount t) ∧
    (∀ cfg, ur20_fbc_mod_tcp.CouplerConfig.validate oc cfg = cfg.validate) ∧
    (∀ w bit, ur20_fbc_mod_tcp.to_bit_address oc w bit = .ok (toBitAddress w bit)) ∧
    (∀ w, ur20_fbc_mod_tcp.to_register_address oc w = .ok (toRegisterAddress w)) :=
  ⟨fun ws => (ur20_fbc_mod_tcp.module_list_eq oc ws).trans (Imp.moduleListFromRegisters_eq ws),
    ur20_fbc_mod_tcp.param_addresses_eq oc, ur20_fbc_mod_tcp.param_count_eq oc,
    ur20_fbc_mod_tcp.validate_eq oc, ur20_fbc_mod_tcp.bit_address_eq oc,
    ur20_fbc_mod_tcp.register_address_eq oc⟩

/-- C136: names, identifiers, categories, channel counts and messages, for every string (with any
mapping of letters to upper case), every identifier and every value. -/
theorem C136_names (oc : Bool) :
    (∀ up s, lib.ModuleType.from_str oc s up = ModuleType.fromStr up s) ∧
    (∀ up s, lib.ModuleCategory.from_str oc s up = ModuleCategory.fromStr up s) ∧
    (∀ id, lib.ModuleType.try_from_u32 oc id = ModuleType.tryFromU32 id) ∧
    (∀ t, lib.ModuleCategory.from_ModuleType oc t = .ok t.category) ∧
    (∀ t, lib.ModuleType.channel_count oc t = .ok t.channelCount) ∧
    (∀ e, error.Error.fmt oc e = .ok e.display) ∧
    (∀ e, error.Error.description oc e = .ok e.description) :=
  ⟨fun up s => from_str_eq oc s up, fun up s => category_from_str_eq oc s up, try_from_u32_eq oc,
    category_eq oc, channel_count_eq oc, error_fmt_eq oc, error_description_eq oc⟩

/-- C136: conversions between registers, bytes and values. Bits are numbered below 64: a larger
shift of a `usize` is an overflow. -/
theorem C136_conversions (oc : Bool) :
    (∀ ws, util.u16_to_u8 oc ws = .ok (u16ToU8 ws)) ∧
    (∀ bs, util.u8_to_u16 oc bs = .ok (u8ToU16 bs)) ∧
    (∀ ws, util.shift_data oc ws = shiftData ws) ∧
    (∀ v r d, util.analog_ui_value_to_u16 oc v r d = .ok (analogUiValueToU16 v r d)) ∧
    (∀ w r d, util.u16_to_analog_ui_value oc w r d = .ok (u16ToAnalogUiValue w r d)) ∧
    (∀ w r, util.u16_to_rtd_value oc w r = .ok (u16ToRtdValue w r)) ∧
    (∀ n, n < 64 → ∀ (b : Byte) (w : Word), util.set_bit oc b n = .ok (setBit b n) ∧
      util.set_bit_16 oc w n = .ok (setBit16 w n) ∧ util.test_bit oc b n = .ok (testBit b n) ∧
      util.test_bit_16 oc w n = .ok (testBit16 w n)) :=
  ⟨u16_to_u8_eq oc, u8_to_u16_eq oc, shift_data_eq oc, analog_ui_value_to_u16_eq oc,
    u16_to_analog_ui_value_eq oc, u16_to_rtd_value_eq oc,
    fun _ h b w => ⟨set_bit_eq oc b h, set_bit_16_eq oc w h, test_bit_eq oc b h,
      test_bit_16_eq oc w h⟩⟩

open ur20_fbc_mod_tcp in
/-- C136: the public register addresses are those of the Modbus register map of the coupler: packed
process data from `0x0000` (input) and `0x0800` (output) on, the coupler at `0x1000`, the lengths of
the process data at `0x1010` and `0x1011`, and the module tables. -/
theorem C136_addresses :
    [ADDR_PACKED_PROCESS_INPUT_DATA, ADDR_PACKED_PROCESS_OUTPUT_DATA, ADDR_COUPLER_ID,
      ADDR_COUPLER_STATUS, ADDR_PROCESS_OUTPUT_LEN, ADDR_PROCESS_INPUT_LEN,
      ADDR_CURRENT_MODULE_COUNT, ADDR_CURRENT_MODULE_LIST, ADDR_MODULE_OFFSETS,
      ADDR_MODULE_PARAMETERS] =
    [0x0000#16, 0x0800#16, 0x1000#16, 0x100C#16, 0x1010#16, 0x1011#16, 0x27FE#16, 0x2A00#16,
      0x2B00#16, 0xC000#16] := rfl

/-- The translated functions on a few inputs. -/
example : ur20_fbc_mod_tcp.module_list_from_registers true [0x0009#16, 0x1F84#16] =
      .ok [.UR20_4DI_P] ∧
    ur20_fbc_mod_tcp.param_addresses_and_register_counts true [.UR20_4DI_P, .UR20_4DO_P] =
      .ok [(0xC000#16, 4#16), (0xC100#16, 4#16)] := by
  decide +kernel

end Ur20
