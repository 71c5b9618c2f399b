import Verif.Source.FbcTrait
import Verif.Source.Util

/-!
# `src/ur20_di_generic.rs`, translated

Generated by `tools/rust2lean.py` from the source. Do not edit.
-/

set_option linter.unusedVariables false

namespace Ur20.Src.ur20_di_generic

/-- `ChannelParameters`, `src/ur20_di_generic.rs:39-41`. -/
structure ChannelParameters where
  inputDelay : InputDelay

/-- `Mod`, `src/ur20_di_generic.rs:33-36`. -/
structure Mod (Variant : ModuleType) where
  chParams : List ChannelParameters

/-- `parameters_from_raw_data`, `src/ur20_di_generic.rs:98-117`. -/
def parameters_from_raw_data (oc : Bool) (Variant : ModuleType) (data : List Word) :
    Res (List ChannelParameters) := do
  let t1 ← lib.ModuleType.channel_count oc Variant
  let _ ← (if decide (data.length < t1) then
        (Res.err Error.bufferLength)
      else
        (pure ()))
  let t2 ← lib.ModuleType.channel_count oc Variant
  let t5 := r_map (r_range 0 t2)
      (fun i =>
        (do
          let t3 ← r_index data i
          let t4 ← (match (FromPrimitive.from_u16 t3 : Option InputDelay) with
              | some x =>
                (pure x)
              | _ =>
                (Res.err Error.channelParameter))
          let p := ({ inputDelay := t4 } : ChannelParameters)
          pure p))
  let channel_parameters ← r_capture (r_collect t5)
  r_release channel_parameters

/-- `from_modbus_parameter_data`, `src/ur20_di_generic.rs:44-50`. -/
def Mod.from_modbus_parameter_data (oc : Bool) (Variant : ModuleType) (data : List Word) :
    Res (Mod Variant) := do
  let t1 ← parameters_from_raw_data oc Variant data
  let ch_params := t1
  pure ({ chParams := ch_params } : Mod Variant)

/-- `default`, `src/ur20_di_generic.rs:54-58`. -/
def ChannelParameters.default (oc : Bool) :
    Res ChannelParameters := do
  pure ({ inputDelay := InputDelay.ms3 } : ChannelParameters)

/-- `default`, `src/ur20_di_generic.rs:62-70`. -/
def Mod.default (oc : Bool) (Variant : ModuleType) :
    Res (Mod Variant) := do
  let t1 ← lib.ModuleType.channel_count oc Variant
  let t3 := r_map (r_range 0 t1)
      (fun _ =>
        (do
          let t2 ← ChannelParameters.default oc
          pure t2))
  let t4 ← r_collect t3
  let ch_params := t4
  pure ({ chParams := ch_params } : Mod Variant)

/-- `module_type`, `src/ur20_di_generic.rs:74-76`. -/
def Mod.module_type (oc : Bool) (Variant : ModuleType) (self : Mod Variant) :
    Res ModuleType := do
  pure Variant

/-- `process_input_byte_count`, `src/ur20_di_generic.rs:80-82`. -/
def Mod.process_input_byte_count (oc : Bool) (Variant : ModuleType) (self : Mod Variant) :
    Res Nat := do
  let t1 ← lib.ModuleType.channel_count oc Variant
  pure (r_div_ceil t1 8)

/-- `process_output_byte_count`, `src/ur20_di_generic.rs:83-85`. -/
def Mod.process_output_byte_count (oc : Bool) (Variant : ModuleType) (self : Mod Variant) :
    Res Nat := do
  pure 0

/-- `process_input_data`, `src/ur20_di_generic.rs:86-95`. -/
def Mod.process_input_data (oc : Bool) (Variant : ModuleType) (self : Mod Variant) (data : List Word) :
    Res (List ChannelValue) := do
  let _ ← (if data.length != 1 then
        (Res.err Error.bufferLength)
      else
        (pure ()))
  let t1 ← r_index data 0
  let bits := t1
  let t2 ← lib.ModuleType.channel_count oc Variant
  let t4 := r_map (r_range 0 t2)
      (fun i =>
        (do
          let t3 ← util.test_bit_16 oc bits i
          pure (ChannelValue.bit t3)))
  let t5 ← r_collect t4
  let res := t5
  pure res

/-- The trait object of a module, `src/ur20_di_generic.rs:79-96`. -/
instance {Variant : ModuleType} : ToDyn (Mod Variant) where
  toDyn oc self := {
    module_type := Mod.module_type oc Variant self
    process_input_byte_count := Mod.process_input_byte_count oc Variant self
    process_output_byte_count := Mod.process_output_byte_count oc Variant self
    process_input_data := Mod.process_input_data oc Variant self
    process_output_data := ur20_fbc_mod_tcp.ProcessModbusTcpData.process_output_data oc (Mod.module_type oc Variant self)
    process_output_values := ur20_fbc_mod_tcp.ProcessModbusTcpData.process_output_values oc (Mod.module_type oc Variant self) }

end Ur20.Src.ur20_di_generic
