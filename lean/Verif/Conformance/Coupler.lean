import Verif.Conformance.Basic

/-!
# Tests of the coupler `src/ur20_fbc_mod_tcp.rs`

The tests run in a debug build, so `oc` (overflow checks) is `true`.
-/

namespace Ur20.Conformance

open ChannelValue Coupler

/-- A bit address in the process output data. -/
def outAddr (reg : Word) (bit : Nat) : ModuleOffset :=
  ⟨Option.none, some (toBitAddress (addrPackedProcessOutputData + reg) bit)⟩

/-- A bit address in the process input data. -/
def inAddr (reg : Word) (bit : Nat) : ModuleOffset :=
  ⟨some (toBitAddress (addrPackedProcessInputData + reg) bit), Option.none⟩

/-- `ur20_4ao_ui_16::Mod::default()` with these output ranges. -/
def ao (r : List AnalogUIRange) : Module :=
  .ao ⟨r.map fun x => { Ao.ChannelParameters.default with outputRange := x }⟩

/-- `ur20_4ai_rtd_diag::Mod::default()` with these measurement ranges. -/
def rtd (r : List RtdRange) : Module :=
  .rtd { Rtd.Mod.default with chParams :=
    (r.map fun x => { Rtd.ChannelParameters.default with measurementRange := x }) }

/-- `Mod::<UR20_4DI_P>::default()`. -/
def diP : Module := .di (Di.Mod.default .UR20_4DI_P)

/-- `Mod::<UR20_4DO_P>::default()`. -/
def doP : Module := .dout (Do.Mod.default .UR20_4DO_P)

/-- The default analog output and temperature modules. -/
example : ao (List.replicate 4 .Disabled) = .ao Ao.Mod.default ∧
    rtd (List.replicate 4 .Disabled) = .rtd Rtd.Mod.default := by decide +kernel

/-- `test_offsets_of_process_data`. -/
example : offsetsOfProcessData [] = [] ∧
    offsetsOfProcessData [0xFFFF, 0x0000, 0x8000, 0x0040, 0x8050, 0xFFFF] =
      [{ output := Option.none, input := some 0x0000 },
       { output := some 0x8000, input := some 0x0040 },
       { output := some 0x8050, input := Option.none }] := by decide +kernel

/-- `test_to_regsiter_address` and `test_to_bit_address`. -/
example : toRegisterAddress 0x80AB = (0x080A, 11) ∧ toBitAddress 0x080A 11 = 0x080AB := by
  decide +kernel

/-- `test_process_input_data`. -/
example :
    let modules := [(ao (List.replicate 4 .Disabled), outAddr 0 0),
      (rtd [.Disabled, .PT100, .Disabled, .Disabled], inAddr 0 0), (diP, inAddr 4 0),
      (diP, inAddr 4 8)]
    let res := Ur20.processInputData true modules [0, 33, 0, 0, 0b0000000100000010]
    res.map (·.map List.length) = .ok [4, 4, 4, 4] ∧
    (res.at? 1).bind (·[1]?) = some (decimal32 (F32.lit 3.3)) ∧
    (res.at? 2).bind (·[1]?) = some (bit true) ∧
    (res.at? 3).bind (·[0]?) = some (bit true) := by decide +kernel

/-- `test_process_input_data_with_invalid_offset`. -/
example : (Ur20.processInputData true [(.rtd Rtd.Mod.default, inAddr 0 3)]
    [0, 33, 0, 0]).isErr := by decide +kernel

/-- `test_process_input_data_with_invalid_data`. -/
example : (Ur20.processInputData true
    [(.rtd Rtd.Mod.default, inAddr 0 0), (.rtd Rtd.Mod.default, inAddr 4 0)]
    [0, 33, 0, 0]).isErr := by decide +kernel

/-- `test_process_output_data`. -/
example :
    let modules := [(ao [.Disabled, .VMinus5To5, .Disabled, .Disabled], outAddr 0 0),
      (rtd (List.replicate 4 .Disabled), inAddr 0 0), (doP, outAddr 4 0), (doP, outAddr 4 8)]
    let res := Ur20.processOutputData true modules [0, 0x3600, 0, 0, 0b0000000100000010]
    res.map (·.map List.length) = .ok [4, 4, 4, 4] ∧
    (res.at? 0).bind (·[1]?) = some (decimal32 (F32.lit 2.5)) ∧
    (res.at? 1).bind (·[0]?) = some .none ∧
    (res.at? 2).bind (·[1]?) = some (bit true) ∧
    (res.at? 3).bind (·[0]?) = some (bit true) := by decide +kernel

/-- `test_process_output_data_with_invalid_offset`. -/
example : (Ur20.processOutputData true [(.ao Ao.Mod.default, outAddr 0 3)]
    [0, 33, 0, 0]).isErr := by decide +kernel

/-- `test_process_output_data_with_invalid_data`. -/
example : (Ur20.processOutputData true
    [(.ao Ao.Mod.default, outAddr 0 0), (.ao Ao.Mod.default, outAddr 4 0)]
    [0, 33, 0, 0]).isErr := by decide +kernel

/-- The analog values of the tests below. -/
def aoValues : List ChannelValue :=
  [decimal32 (F32.lit 15), decimal32 (F32.lit 20), decimal32 (F32.lit 20), decimal32 (F32.lit 10)]

/-- `test_process_output_values_with_invalid_len`. -/
example : (Ur20.processOutputValues
    [(.ao Ao.Mod.default, outAddr 0 0), (.rtd Rtd.Mod.default, inAddr 0 0)]
    [aoValues]).isErr := by decide +kernel

/-- `test_process_output_values_with_invalid_offset_a`. -/
example : (Ur20.processOutputValues
    [(.ao Ao.Mod.default, outAddr 10 0), (.rtd Rtd.Mod.default, inAddr 0 0)]
    [aoValues, []]).isErr := by decide +kernel

/-- `test_process_output_values_with_invalid_offset_b`. -/
example : (Ur20.processOutputValues
    [(.ao Ao.Mod.default, outAddr 0 0), (.rtd Rtd.Mod.default, inAddr 0 0), (doP, outAddr 1 8)]
    [aoValues, [], List.replicate 4 (bit false)]).isErr := by decide +kernel

/-- `test_process_output_values_with_invalid_offset_c`. -/
example : (Ur20.processOutputValues
    [(.ao Ao.Mod.default, ⟨Option.none, some (toBitAddress 0 0)⟩)] [aoValues]).isErr := by
  decide +kernel

/-- `test_process_output_values`. -/
example : Ur20.processOutputValues
    [(ao [.Disabled, .mA0To20, .Disabled, .mA0To20], outAddr 0 0),
     (.rtd Rtd.Mod.default, inAddr 0 0), (doP, outAddr 4 0), (doP, outAddr 4 8)]
    [aoValues, [], [bit false, bit true, bit false, bit false],
     [bit false, bit false, bit true, bit true]] =
    .ok [0x0, 0x6C00, 0x0, 0x3600, 0b0000110000000010] := by decide +kernel

/-- `test_param_addresses_and_register_counts`. -/
example : paramAddressesAndRegisterCounts true [] = .ok [] ∧
    paramAddressesAndRegisterCounts true [.UR20_4DI_P] = .ok [(0xC000, 4)] ∧
    paramAddressesAndRegisterCounts true [.UR20_4DI_P, .UR20_4DO_P, .UR20_4AI_RTD_DIAG] =
      .ok [(0xC000, 4), (0xC100, 4), (0xC200, 29)] := by decide +kernel

/-- `validate_coupler_config_data`. -/
example : (CouplerConfig.validate ⟨[], [], []⟩).isOk ∧
    (CouplerConfig.validate ⟨[.UR20_4DI_P], [0xFFFF, 0x0000], [words 4]⟩).isOk ∧
    (CouplerConfig.validate ⟨[.UR20_4DI_P], [0xFFFF, 0x0000], []⟩).isErr ∧
    (CouplerConfig.validate ⟨[.UR20_4DI_P], [], [words 4]⟩).isErr ∧
    (CouplerConfig.validate ⟨[.UR20_4DI_P], [0xFFFF], []⟩).isErr := by decide +kernel

/-- The configuration of `create_new_coupler_instance`. -/
def cfg1 : CouplerConfig :=
  ⟨[.UR20_4DI_P, .UR20_1COM_232_485_422], [0xFFFF, 0x0000, 0x8000, 0x0008], [words 4, words 10]⟩

/-- `create_new_coupler_instance`. The maps of the model have no size: exactly module 1 of the
two modules has a processor, and no write is pending on any channel. -/
example :
    let c := Coupler.new cfg1
    (Coupler.new { cfg1 with params := [] }).isErr ∧
    c.map (·.modules.length) = .ok 2 ∧ c.map (·.offsets.length) = .ok 2 ∧
    c.map (fun c => (List.range 2).map c.hasReader) = .ok [false, true] ∧
    c.map (·.inValues.length) = .ok 0 ∧ c.map (·.outValues.length) = .ok 0 ∧
    c.map (fun c => (c.write ⟨0, 0⟩, c.write ⟨1, 0⟩)) = .ok (Option.none, Option.none) := by
  decide +kernel

/-- The configuration of `process_in_out_data_with_coupler`. -/
def cfg2 : CouplerConfig :=
  ⟨[.UR20_4DI_P, .UR20_4DO_P, .UR20_1COM_232_485_422],
   [0xFFFF, 0x0000, 0x8000, 0xFFFF, toBitAddress 0x0801 0, toBitAddress 0x0001 0],
   [words 4, words 4, [0, 1, 0, 0, 0, 0, 0, 0, 0, 0]]⟩

/-- `c.next(..).unwrap()`: the state and the words, or nothing after an error or a panic. -/
def nextOk (c : Coupler) (pi po : List Word) : Option (Coupler × List Word) :=
  match c.next true pi po with
  | (c, .ok w) => some (c, w)
  | _ => Option.none

/-- `c.set_output(..).is_ok()`, with the state after it. -/
def setOk (c : Coupler) (m ch : Nat) (v : ChannelValue) : Coupler × Bool :=
  ((c.setOutput ⟨m, ch⟩ v).1, (c.setOutput ⟨m, ch⟩ v).2.isOk)

/-- `reader(2).unwrap().read(&mut buf)` with a buffer of 20 bytes. -/
def readOk (c : Coupler) : Option (Coupler × List Byte) :=
  match c.read 2 20 with
  | .ok (c, some d) => some (c, d)
  | _ => Option.none

/-- `process_in_out_data_with_coupler`, with every assertion as an element of the list. -/
def session : Option (List Bool) := do
  let c ← (Coupler.new cfg2).get?
  let pi := [0b0101, 0b0000010011110001, 0, 0xABCD, 0]
  let (c, po) ← nextOk c pi [0b1100, 0, 0, 0, 0, 0, 0, 0, 0, 0]
  let (c, po) ← nextOk c pi po
  let (c, po) ← nextOk c pi po
  let t1 := [
    c.inputs.length == 3, c.outputs.length == 3,
    decide (c.inputs[0]? = some [bit true, bit false, bit true, bit false]),
    decide (c.outputs[1]? = some [bit false, bit false, bit true, bit true]),
    decide (c.outputs[0]? = some (List.replicate 4 .none)),
    decide (c.inputs[1]? = some (List.replicate 4 .none)),
    decide (c.inputs[2]? = some [bytes [0, 0, 0xCD, 0xAB]]),
    decide (c.outputs[2]? = some [.none])]
  let (c, ok1) := setOk c 2 0 (bytes (ascii "Hello modbus coupler!"))
  let (c, ok2) := setOk c 1 1 (bit true)
  let (c, ok3) := setOk c 3 0 (bit true)
  let (c, ok4) := setOk c 2 1 (bit true)
  let t2 := [ok1, ok2, !ok3, !ok4, (c.write ⟨2, 0⟩).isSome, (c.write ⟨1, 1⟩).isSome]
  let pi := [0b0101, 0, 0, 0, 0]
  let (c, po) ← nextOk c pi po
  let t3 := [
    (c.write ⟨2, 0⟩).isNone, (c.write ⟨1, 1⟩).isNone,
    decide ((c.outputs[1]?).bind (·[1]?) = some (bit false)),
    decide ((c.inputs[2]?).bind (·[0]?) = some .none),
    decide ((c.outputs[2]?).bind (·[0]?) = some .none)]
  let (c, po) ← nextOk c pi po
  let t4 := [
    decide ((c.outputs[1]?).bind (·[1]?) = some (bit true)),
    decide ((c.inputs[2]?).bind (·[0]?) = some .none),
    decide ((c.outputs[2]?).bind (·[0]?) = some (bytes (ascii "Hello ")))]
  let (c, po) ← nextOk c pi po
  let t5 := [decide ((c.outputs[2]?).bind (·[0]?) = some .none)]
  let pi := [0b0101, 0b0000010111111001, 0xDDEE, 0xFFFF, 0x00AA]
  let (c, _) ← nextOk c pi po
  let t6 := [!c.hasReader 0, !c.hasReader 1, c.hasReader 2, !c.hasWriter 0, !c.hasWriter 1,
    c.hasWriter 2]
  let (c, r0) ← readOk c
  let (_, r1) ← readOk c
  let t7 := [decide (r0 = [0, 0, 0xCD, 0xAB, 0xEE, 0xDD, 0xFF, 0xFF, 0xAA]), decide (r1 = [])]
  return t1 ++ t2 ++ t3 ++ t4 ++ t5 ++ t6 ++ t7

/-- `process_in_out_data_with_coupler`. -/
example : session = some (List.replicate 31 true) := by decide +kernel

/-- `test_module_list_from_registers`. -/
example : moduleListFromRegisters [] = .err .registerCount ∧
    moduleListFromRegisters [0xAB0C] = .err .registerCount ∧
    moduleListFromRegisters [0x0101, 0x2FA0] = .ok [.UR20_4DO_P] := by decide +kernel

end Ur20.Conformance
