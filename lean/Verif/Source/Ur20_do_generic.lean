import Verif.Source.FbcTrait
import Verif.Source.Util

/-!
# `src/ur20_do_generic.rs`, translated

Generated by `tools/rust2lean.py` from the source. Do not edit.
-/

set_option linter.unusedVariables false

namespace Ur20.Src.ur20_do_generic

/-- `ChannelParameters`, `src/ur20_do_generic.rs:39-41`. -/
structure ChannelParameters where
  substituteValue : Bool

/-- `Mod`, `src/ur20_do_generic.rs:33-36`. -/
structure Mod (Variant : ModuleType) where
  chParams : List ChannelParameters

/-- The derived `ChannelParameters::default`, `src/ur20_do_generic.rs:39-41`. -/
def ChannelParameters.default (oc : Bool) : Res ChannelParameters := do
  pure { substituteValue := false }

/-- `parameters_from_raw_data`, `src/ur20_do_generic.rs:114-134`. -/
def parameters_from_raw_data (oc : Bool) (Variant : ModuleType) (data : List Word) :
    Res (List ChannelParameters) := do
  let t1 ← lib.ModuleType.channel_count oc Variant
  let _ ← (if decide (data.length < t1) then
        (Res.err Error.bufferLength)
      else
        (pure ()))
  let t2 ← lib.ModuleType.channel_count oc Variant
  let t5 := r_map (r_range 0 t2)
      (fun i =>
        (do
          let t3 ← r_index data i
          let t4 ← (if t3 == 0 then
                (pure false)
              else if t3 == 1 then
                (pure true)
              else
                (Res.err Error.channelParameter))
          let p := ({ substituteValue := t4 } : ChannelParameters)
          pure p))
  let channel_parameters ← r_capture (r_collect t5)
  r_release channel_parameters

/-- `from_modbus_parameter_data`, `src/ur20_do_generic.rs:44-50`. -/
def Mod.from_modbus_parameter_data (oc : Bool) (Variant : ModuleType) (data : List Word) :
    Res (Mod Variant) := do
  let t1 ← parameters_from_raw_data oc Variant data
  let ch_params := t1
  pure ({ chParams := ch_params } : Mod Variant)

/-- `default`, `src/ur20_do_generic.rs:54-59`. -/
def Mod.default (oc : Bool) (Variant : ModuleType) :
    Res (Mod Variant) := do
  let t1 ← ChannelParameters.default oc
  let t2 ← lib.ModuleType.channel_count oc Variant
  pure ({ chParams := List.replicate t2 t1 } : Mod Variant)

/-- `module_type`, `src/ur20_do_generic.rs:63-65`. -/
def Mod.module_type (oc : Bool) (Variant : ModuleType) (self : Mod Variant) :
    Res ModuleType := do
  pure Variant

/-- `process_input_byte_count`, `src/ur20_do_generic.rs:68-70`. -/
def Mod.process_input_byte_count (oc : Bool) (Variant : ModuleType) (self : Mod Variant) :
    Res Nat := do
  pure 0

/-- `process_output_byte_count`, `src/ur20_do_generic.rs:71-80`. -/
def Mod.process_output_byte_count (oc : Bool) (Variant : ModuleType) (self : Mod Variant) :
    Res Nat := do
  let t1 ← lib.ModuleType.channel_count oc Variant
  (if t1 == 4 then
    (pure 1)
  else if t1 == 8 then
    (pure 1)
  else if t1 == 16 then
    (pure 2)
  else
    (Res.panic))

/-- `process_output_data`, `src/ur20_do_generic.rs:81-89`. -/
def Mod.process_output_data (oc : Bool) (Variant : ModuleType) (self : Mod Variant) (data : List Word) :
    Res (List ChannelValue) := do
  let _ ← (if data.length != 1 then
        (Res.err Error.bufferLength)
      else
        (pure ()))
  let t1 ← lib.ModuleType.channel_count oc Variant
  let t4 := r_map (r_range 0 t1)
      (fun i =>
        (do
          let t2 ← r_index data 0
          let t3 ← util.test_bit_16 oc t2 i
          pure t3))
  let t5 := r_map t4
      (fun x => pure (ChannelValue.bit x))
  let t6 ← r_collect t5
  pure t6

/-- `process_output_values`, `src/ur20_do_generic.rs:90-111`. -/
def Mod.process_output_values (oc : Bool) (Variant : ModuleType) (self : Mod Variant) (values : List ChannelValue) :
    Res (List Word) := do
  let t1 ← lib.ModuleType.channel_count oc Variant
  let _ ← (if values.length != t1 then
        (Res.err Error.channelValue)
      else
        (pure ()))
  let res : Word := 0
  let t2 ← r_collect (r_enumerate (r_iter values))
  let res ← r_loop t2 res (fun res (i, v) =>
        (do
          let res ← (match v with
              | ChannelValue.bit state =>
                (do
                  let res ← (if state then
                        (do
                          let t3 ← util.set_bit_16 oc res i
                          let res := t3
                          pure res)
                      else
                        (pure res))
                  pure res)
              | ChannelValue.disabled =>
                (pure res)
              | _ =>
                (Res.err Error.channelValue))
          pure res))
  pure [res]

/-- The trait object of a module, `src/ur20_do_generic.rs:67-112`. -/
instance {Variant : ModuleType} : ToDyn (Mod Variant) where
  toDyn oc self := {
    module_type := Mod.module_type oc Variant self
    process_input_byte_count := Mod.process_input_byte_count oc Variant self
    process_output_byte_count := Mod.process_output_byte_count oc Variant self
    process_input_data := ur20_fbc_mod_tcp.ProcessModbusTcpData.process_input_data oc (Mod.module_type oc Variant self)
    process_output_data := Mod.process_output_data oc Variant self
    process_output_values := Mod.process_output_values oc Variant self }

end Ur20.Src.ur20_do_generic
