import Verif.Source.FbcTrait
import Verif.Source.Util

/-!
# `src/ur20_pf_o_1di_sil.rs`, translated

Generated by `tools/rust2lean.py` from the source. Do not edit.
-/

set_option linter.unusedVariables false

namespace Ur20.Src.ur20_pf_o_1di_sil

/-- `Mod`, `src/ur20_pf_o_1di_sil.rs:10-10`. -/
structure Mod where

/-- The derived `Mod::default`, `src/ur20_pf_o_1di_sil.rs:10-10`. -/
def Mod.default (oc : Bool) : Res Mod := do
  pure {  }

/-- The fields of `ProcessInput`, `src/ur20_pf_o_1di_sil.rs:14-30`. -/
def ProcessInput.fields (x : SilIn) : Bool × Bool × Bool × Bool × Bool × Bool × Bool :=
  (x.safetyInput, x.autostart, x.manualStart, x.safetyInputChannel1, x.safetyInputChannel2, x.volt24SafeOutput, x.volt24Dc)

/-- `ProcessInput` has no other fields. -/
theorem ProcessInput.fields_all (x : SilIn) : x = { safetyInput := x.safetyInput, autostart := x.autostart, manualStart := x.manualStart, safetyInputChannel1 := x.safetyInputChannel1, safetyInputChannel2 := x.safetyInputChannel2, volt24SafeOutput := x.volt24SafeOutput, volt24Dc := x.volt24Dc } := rfl

/-- The derived `ProcessInput::default`, `src/ur20_pf_o_1di_sil.rs:14-30`. -/
def ProcessInput.default (oc : Bool) : Res SilIn := do
  pure { safetyInput := false, autostart := false, manualStart := false, safetyInputChannel1 := false, safetyInputChannel2 := false, volt24SafeOutput := false, volt24Dc := false }

/-- `from`, `src/ur20_pf_o_1di_sil.rs:33-35`. -/
def ChannelValue.from_ProcessInput (oc : Bool) (o : SilIn) :
    Res ChannelValue := do
  pure (ChannelValue.silPFIn o)

/-- `module_type`, `src/ur20_pf_o_1di_sil.rs:39-41`. -/
def Mod.module_type (oc : Bool) (self : Mod) :
    Res ModuleType := do
  pure ModuleType.UR20_PF_O_1DI_SIL

/-- `from_modbus_parameter_data`, `src/ur20_pf_o_1di_sil.rs:45-50`. -/
def Mod.from_modbus_parameter_data (oc : Bool) (data : List Word) :
    Res Mod := do
  let _ ← (if !data.isEmpty then
        (Res.err Error.bufferLength)
      else
        (pure ()))
  pure ({} : Mod)

/-- `process_input_byte_count`, `src/ur20_pf_o_1di_sil.rs:54-56`. -/
def Mod.process_input_byte_count (oc : Bool) (self : Mod) :
    Res Nat := do
  pure 4

/-- `process_output_byte_count`, `src/ur20_pf_o_1di_sil.rs:57-59`. -/
def Mod.process_output_byte_count (oc : Bool) (self : Mod) :
    Res Nat := do
  pure 0

/-- `process_input_data`, `src/ur20_pf_o_1di_sil.rs:60-78`. -/
def Mod.process_input_data (oc : Bool) (self : Mod) (data : List Word) :
    Res (List ChannelValue) := do
  let _ ← (if data.length != 2 then
        (Res.err Error.bufferLength)
      else
        (pure ()))
  let t1 ← r_index data 0
  let (byte0, byte1) := r_to_le_bytes t1
  let t2 ← r_index data 1
  let (_byte2, _byte3) := r_to_le_bytes t2
  let t3 ← util.test_bit oc byte0 0
  let t4 ← util.test_bit oc byte0 2
  let t5 ← util.test_bit oc byte0 3
  let t6 ← util.test_bit oc byte0 4
  let t7 ← util.test_bit oc byte0 5
  let t8 ← util.test_bit oc byte1 0
  let t9 ← util.test_bit oc byte1 2
  let t10 ← ChannelValue.from_ProcessInput oc ({ safetyInput := t3, autostart := t4, manualStart := t5, safetyInputChannel1 := t6, safetyInputChannel2 := t7, volt24SafeOutput := t8, volt24Dc := t9 } : SilIn)
  pure [t10]

/-- The trait object of a module, `src/ur20_pf_o_1di_sil.rs:53-79`. -/
instance : ToDyn Mod where
  toDyn oc self := {
    module_type := Mod.module_type oc self
    process_input_byte_count := Mod.process_input_byte_count oc self
    process_output_byte_count := Mod.process_output_byte_count oc self
    process_input_data := Mod.process_input_data oc self
    process_output_data := ur20_fbc_mod_tcp.ProcessModbusTcpData.process_output_data oc (Mod.module_type oc self)
    process_output_values := ur20_fbc_mod_tcp.ProcessModbusTcpData.process_output_values oc (Mod.module_type oc self) }

end Ur20.Src.ur20_pf_o_1di_sil
