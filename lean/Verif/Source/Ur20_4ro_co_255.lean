import Verif.Source.FbcTrait
import Verif.Source.Util

/-!
# `src/ur20_4ro_co_255.rs`, translated

Generated by `tools/rust2lean.py` from the source. Do not edit.
-/

set_option linter.unusedVariables false

namespace Ur20.Src.ur20_4ro_co_255

/-- `ChannelParameters`, `src/ur20_4ro_co_255.rs:13-15`. -/
structure ChannelParameters where
  substituteValue : Bool

/-- `Mod`, `src/ur20_4ro_co_255.rs:8-10`. -/
structure Mod where
  chParams : List ChannelParameters

/-- The derived `ChannelParameters::default`, `src/ur20_4ro_co_255.rs:13-15`. -/
def ChannelParameters.default (oc : Bool) : Res ChannelParameters := do
  pure { substituteValue := false }

/-- `parameters_from_raw_data`, `src/ur20_4ro_co_255.rs:77-97`. -/
def parameters_from_raw_data (oc : Bool) (data : List Word) :
    Res (List ChannelParameters) := do
  let _ ← (if decide (data.length < 4) then
        (Res.err Error.bufferLength)
      else
        (pure ()))
  let t3 := r_map (r_range 0 4)
      (fun i =>
        (do
          let t1 ← r_index data i
          let t2 ← (if t1 == 0 then
                (pure false)
              else if t1 == 1 then
                (pure true)
              else
                (Res.err Error.channelParameter))
          let p := ({ substituteValue := t2 } : ChannelParameters)
          pure p))
  let channel_parameters ← r_capture (r_collect t3)
  r_release channel_parameters

/-- `from_modbus_parameter_data`, `src/ur20_4ro_co_255.rs:18-21`. -/
def Mod.from_modbus_parameter_data (oc : Bool) (data : List Word) :
    Res Mod := do
  let t1 ← parameters_from_raw_data oc data
  let ch_params := t1
  pure ({ chParams := ch_params } : Mod)

/-- `default`, `src/ur20_4ro_co_255.rs:25-28`. -/
def Mod.default (oc : Bool) :
    Res Mod := do
  let t2 := r_map (r_range 0 4)
      (fun _ =>
        (do
          let t1 ← ChannelParameters.default oc
          pure t1))
  let t3 ← r_collect t2
  let ch_params := t3
  pure ({ chParams := ch_params } : Mod)

/-- `module_type`, `src/ur20_4ro_co_255.rs:32-34`. -/
def Mod.module_type (oc : Bool) (self : Mod) :
    Res ModuleType := do
  pure ModuleType.UR20_4RO_CO_255

/-- `process_input_byte_count`, `src/ur20_4ro_co_255.rs:38-40`. -/
def Mod.process_input_byte_count (oc : Bool) (self : Mod) :
    Res Nat := do
  pure 0

/-- `process_output_byte_count`, `src/ur20_4ro_co_255.rs:41-43`. -/
def Mod.process_output_byte_count (oc : Bool) (self : Mod) :
    Res Nat := do
  pure 1

/-- `process_output_data`, `src/ur20_4ro_co_255.rs:44-52`. -/
def Mod.process_output_data (oc : Bool) (self : Mod) (data : List Word) :
    Res (List ChannelValue) := do
  let _ ← (if data.length != 1 then
        (Res.err Error.bufferLength)
      else
        (pure ()))
  let t3 := r_map (r_range 0 4)
      (fun i =>
        (do
          let t1 ← r_index data 0
          let t2 ← util.test_bit_16 oc t1 i
          pure t2))
  let t4 := r_map t3
      (fun x => pure (ChannelValue.bit x))
  let t5 ← r_collect t4
  pure t5

/-- `process_output_values`, `src/ur20_4ro_co_255.rs:53-74`. -/
def Mod.process_output_values (oc : Bool) (self : Mod) (values : List ChannelValue) :
    Res (List Word) := do
  let _ ← (if values.length != 4 then
        (Res.err Error.channelValue)
      else
        (pure ()))
  let res : Word := 0
  let t1 ← r_collect (r_enumerate (r_iter values))
  let res ← r_loop t1 res (fun res (i, v) =>
        (do
          let res ← (match v with
              | ChannelValue.bit state =>
                (do
                  let res ← (if state then
                        (do
                          let t2 ← util.set_bit_16 oc res i
                          let res := t2
                          pure res)
                      else
                        (pure res))
                  pure res)
              | ChannelValue.disabled =>
                (pure res)
              | _ =>
                (Res.err Error.channelValue))
          pure res))
  pure [res]

/-- The trait object of a module, `src/ur20_4ro_co_255.rs:37-75`. -/
instance : ToDyn Mod where
  toDyn oc self := {
    module_type := Mod.module_type oc self
    process_input_byte_count := Mod.process_input_byte_count oc self
    process_output_byte_count := Mod.process_output_byte_count oc self
    process_input_data := ur20_fbc_mod_tcp.ProcessModbusTcpData.process_input_data oc (Mod.module_type oc self)
    process_output_data := Mod.process_output_data oc self
    process_output_values := Mod.process_output_values oc self }

end Ur20.Src.ur20_4ro_co_255
