import Verif.Model.Values

/-!
# Digital modules

`src/ur20_di_generic.rs`, `src/ur20_do_generic.rs`, `src/ur20_16do_p.rs`,
`src/ur20_4ro_co_255.rs`.
-/

namespace Ur20

/-- Default `process_input_data` and `process_output_data` of the trait
`ProcessModbusTcpData`, `src/ur20_fbc_mod_tcp.rs:32-46`. -/
def defaultProcessData (t : ModuleType) (data : List Word) : Res (List ChannelValue) :=
  if !data.isEmpty then .err .bufferLength
  else .ok (List.replicate t.channelCount .none)

/-- Default `process_output_values` of the trait `ProcessModbusTcpData`,
`src/ur20_fbc_mod_tcp.rs:48-53`. -/
def defaultProcessOutputValues (t : ModuleType) (values : List ChannelValue) :
    Res (List Word) :=
  if !values.isEmpty && values.length != t.channelCount then .err .channelValue
  else .ok []

/-- The bits of a word as channel values: `(0..n).map(|i| Bit(test_bit_16(w, i)))`,
`src/ur20_di_generic.rs:91-93`, `src/ur20_do_generic.rs:85-88`, `src/ur20_16do_p.rs:42-45`,
`src/ur20_4ro_co_255.rs:48-51`. -/
def bitValues (n : Nat) (w : Word) : List ChannelValue :=
  (List.range n).map fun i => .bit (testBit16 w i)

/-- The loop over the enumerated channel values, identical in `src/ur20_do_generic.rs:94-110`,
`src/ur20_16do_p.rs:51-67` and `src/ur20_4ro_co_255.rs:57-73`; `i` is the loop index and `res`
the accumulated word. -/
def encodeBits (i : Nat) (res : Word) : List ChannelValue → Res Word
  | [] => .ok res
  | .bit state :: vs => encodeBits (i + 1) (if state then setBit16 res i else res) vs
  | .disabled :: vs => encodeBits (i + 1) res vs
  | _ :: _ => .err .channelValue

/-! Generic digital input modules, `src/ur20_di_generic.rs`. -/
namespace Di

/-- `make_variants!`, `src/ur20_di_generic.rs:27-30`. -/
inductive Variant where
  | UR20_4DI_P
  | UR20_8DI_P_2W
  deriving DecidableEq, Repr

/-- `Variant::MODULE_TYPE`, `src/ur20_di_generic.rs:20-22`. -/
def Variant.moduleType : Variant → ModuleType
  | .UR20_4DI_P => .UR20_4DI_P
  | .UR20_8DI_P_2W => .UR20_8DI_P_2W

/-- `src/ur20_di_generic.rs:39-41`. -/
structure ChannelParameters where
  inputDelay : InputDelay
  deriving DecidableEq, Repr

/-- `src/ur20_di_generic.rs:33-36`; the phantom type parameter is a field. -/
structure Mod where
  variant : Variant
  chParams : List ChannelParameters
  deriving DecidableEq, Repr

/-- `parameters_from_raw_data`, `src/ur20_di_generic.rs:98-117`. -/
def parametersFromRawData (v : Variant) (data : List Word) : Res (List ChannelParameters) :=
  if data.length < v.moduleType.channelCount then .err .bufferLength
  else mapRes (fun i => do
    let d ← codeParam InputDelay.fromU16 (← idx data i)
    pure ⟨d⟩) (List.range v.moduleType.channelCount)

/-- `from_modbus_parameter_data`, `src/ur20_di_generic.rs:43-51`. -/
def fromModbusParameterData (v : Variant) (data : List Word) : Res Mod := do
  let p ← parametersFromRawData v data
  pure ⟨v, p⟩

/-- `module_type`, `src/ur20_di_generic.rs:73-77`. -/
def Mod.moduleType (m : Mod) : ModuleType := m.variant.moduleType

/-- `process_input_byte_count`, `src/ur20_di_generic.rs:80-82`. -/
def Mod.inputByteCount (m : Mod) : Nat := (m.variant.moduleType.channelCount + 7) / 8

/-- `process_output_byte_count`, `src/ur20_di_generic.rs:83-85`. -/
def Mod.outputByteCount (_ : Mod) : Nat := 0

/-- `process_input_data`, `src/ur20_di_generic.rs:86-95`. -/
def Mod.processInputData (m : Mod) (data : List Word) : Res (List ChannelValue) :=
  if data.length ≠ 1 then .err .bufferLength
  else do
    let bits ← idx data 0
    pure (bitValues m.variant.moduleType.channelCount bits)

end Di

/-! Generic digital output modules, `src/ur20_do_generic.rs`. -/
namespace Do

/-- `make_variants!`, `src/ur20_do_generic.rs:26-30`. -/
inductive Variant where
  | UR20_4DO_P
  | UR20_4DO_P_2A
  | UR20_8DO_P
  deriving DecidableEq, Repr

/-- `Variant::MODULE_TYPE`, `src/ur20_do_generic.rs:19-21`. -/
def Variant.moduleType : Variant → ModuleType
  | .UR20_4DO_P => .UR20_4DO_P
  | .UR20_4DO_P_2A => .UR20_4DO_P_2A
  | .UR20_8DO_P => .UR20_8DO_P

/-- `src/ur20_do_generic.rs:39-41`, also `src/ur20_4ro_co_255.rs:13-15`. -/
structure ChannelParameters where
  substituteValue : Bool
  deriving DecidableEq, Repr

/-- `src/ur20_do_generic.rs:33-36`; the phantom type parameter is a field. -/
structure Mod where
  variant : Variant
  chParams : List ChannelParameters
  deriving DecidableEq, Repr

/-- `parameters_from_raw_data`, `src/ur20_do_generic.rs:114-134`. -/
def parametersFromRawData (v : Variant) (data : List Word) : Res (List ChannelParameters) :=
  if data.length < v.moduleType.channelCount then .err .bufferLength
  else mapRes (fun i => do
    let s ← boolParam (← idx data i)
    pure ⟨s⟩) (List.range v.moduleType.channelCount)

/-- `from_modbus_parameter_data`, `src/ur20_do_generic.rs:43-51`. -/
def fromModbusParameterData (v : Variant) (data : List Word) : Res Mod := do
  let p ← parametersFromRawData v data
  pure ⟨v, p⟩

/-- `module_type`, `src/ur20_do_generic.rs:62-66`. -/
def Mod.moduleType (m : Mod) : ModuleType := m.variant.moduleType

/-- `process_input_byte_count`, `src/ur20_do_generic.rs:68-70`. -/
def Mod.inputByteCount (_ : Mod) : Nat := 0

/-- `process_output_byte_count`, `src/ur20_do_generic.rs:71-80`. The `unreachable!` arm is
unreachable for the three variants, whose channel counts are 4, 4 and 8; the model gives 0
there. -/
def Mod.outputByteCount (m : Mod) : Nat :=
  match m.variant.moduleType.channelCount with
  | 4 => 1
  | 8 => 1
  | 16 => 2
  | _ => 0

/-- `process_output_data`, `src/ur20_do_generic.rs:81-89`. -/
def Mod.processOutputData (m : Mod) (data : List Word) : Res (List ChannelValue) :=
  if data.length ≠ 1 then .err .bufferLength
  else do
    let w ← idx data 0
    pure (bitValues m.variant.moduleType.channelCount w)

/-- `process_output_values`, `src/ur20_do_generic.rs:90-111`. -/
def Mod.processOutputValues (m : Mod) (values : List ChannelValue) : Res (List Word) :=
  if values.length ≠ m.variant.moduleType.channelCount then .err .channelValue
  else do
    let res ← encodeBits 0 0#16 values
    pure [res]

end Do

/-! Digital output module UR20-16DO-P, `src/ur20_16do_p.rs`. -/
namespace Do16

/-- `from_modbus_parameter_data`, `src/ur20_16do_p.rs:10-17`; the module has no data. -/
def fromModbusParameterData (data : List Word) : Res Unit :=
  if !data.isEmpty then .err .bufferLength else .ok ()

/-- `process_output_data`, `src/ur20_16do_p.rs:38-46`. -/
def processOutputData (data : List Word) : Res (List ChannelValue) :=
  if data.length ≠ 1 then .err .bufferLength
  else do
    let w ← idx data 0
    pure (bitValues 16 w)

/-- `process_output_values`, `src/ur20_16do_p.rs:47-68`. -/
def processOutputValues (values : List ChannelValue) : Res (List Word) :=
  if values.length ≠ 16 then .err .channelValue
  else do
    let res ← encodeBits 0 0#16 values
    pure [res]

end Do16

/-! Relay output module UR20-4RO-CO-255, `src/ur20_4ro_co_255.rs`. -/
namespace Ro

/-- `src/ur20_4ro_co_255.rs:8-10`. The channel parameters have the same shape as those of the
digital output modules. -/
structure Mod where
  chParams : List Do.ChannelParameters
  deriving DecidableEq, Repr

/-- `parameters_from_raw_data`, `src/ur20_4ro_co_255.rs:77-97`. -/
def parametersFromRawData (data : List Word) : Res (List Do.ChannelParameters) :=
  if data.length < 4 then .err .bufferLength
  else mapRes (fun i => do
    let s ← boolParam (← idx data i)
    pure ⟨s⟩) (List.range 4)

/-- `from_modbus_parameter_data`, `src/ur20_4ro_co_255.rs:17-22`. -/
def fromModbusParameterData (data : List Word) : Res Mod := do
  let p ← parametersFromRawData data
  pure ⟨p⟩

/-- `process_output_data`, `src/ur20_4ro_co_255.rs:44-52`. -/
def processOutputData (data : List Word) : Res (List ChannelValue) :=
  if data.length ≠ 1 then .err .bufferLength
  else do
    let w ← idx data 0
    pure (bitValues 4 w)

/-- `process_output_values`, `src/ur20_4ro_co_255.rs:53-74`. -/
def processOutputValues (values : List ChannelValue) : Res (List Word) :=
  if values.length ≠ 4 then .err .channelValue
  else do
    let res ← encodeBits 0 0#16 values
    pure [res]

end Ro

end Ur20
