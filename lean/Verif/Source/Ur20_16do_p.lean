import Verif.Source.FbcTrait
import Verif.Source.Util

/-!
# `src/ur20_16do_p.rs`, translated

Generated by `tools/rust2lean.py` from the source. Do not edit.
-/

set_option linter.unusedVariables false

namespace Ur20.Src.ur20_16do_p

/-- `Mod`, `src/ur20_16do_p.rs:8-8`. -/
structure Mod where

/-- `from_modbus_parameter_data`, `src/ur20_16do_p.rs:11-16`. -/
def Mod.from_modbus_parameter_data (oc : Bool) (data : List Word) :
    Res Mod := do
  let _ ← (if !data.isEmpty then
        (Res.err Error.bufferLength)
      else
        (pure ()))
  pure ({} : Mod)

/-- `default`, `src/ur20_16do_p.rs:20-22`. -/
def Mod.default (oc : Bool) :
    Res Mod := do
  pure ({} : Mod)

/-- `module_type`, `src/ur20_16do_p.rs:26-28`. -/
def Mod.module_type (oc : Bool) (self : Mod) :
    Res ModuleType := do
  pure ModuleType.UR20_16DO_P

/-- `process_input_byte_count`, `src/ur20_16do_p.rs:32-34`. -/
def Mod.process_input_byte_count (oc : Bool) (self : Mod) :
    Res Nat := do
  pure 0

/-- `process_output_byte_count`, `src/ur20_16do_p.rs:35-37`. -/
def Mod.process_output_byte_count (oc : Bool) (self : Mod) :
    Res Nat := do
  pure 2

/-- `process_output_data`, `src/ur20_16do_p.rs:38-46`. -/
def Mod.process_output_data (oc : Bool) (self : Mod) (data : List Word) :
    Res (List ChannelValue) := do
  let _ ← (if data.length != 1 then
        (Res.err Error.bufferLength)
      else
        (pure ()))
  let t3 := r_map (r_range 0 16)
      (fun i =>
        (do
          let t1 ← r_index data 0
          let t2 ← util.test_bit_16 oc t1 i
          pure t2))
  let t4 := r_map t3
      (fun x => pure (ChannelValue.bit x))
  let t5 ← r_collect t4
  pure t5

/-- `process_output_values`, `src/ur20_16do_p.rs:47-68`. -/
def Mod.process_output_values (oc : Bool) (self : Mod) (values : List ChannelValue) :
    Res (List Word) := do
  let _ ← (if values.length != 16 then
        (Res.err Error.channelValue)
      else
        (pure ()))
  let res : Word := 0
  let t1 ← r_collect (r_enumerate (r_iter values))
  let res ← r_loop t1 res (fun res (i, v) =>
        (do
          let res ← (match v with
              | ChannelValue.bit state =>
                (do
                  let res ← (if state then
                        (do
                          let t2 ← util.set_bit_16 oc res i
                          let res := t2
                          pure res)
                      else
                        (pure res))
                  pure res)
              | ChannelValue.disabled =>
                (pure res)
              | _ =>
                (Res.err Error.channelValue))
          pure res))
  pure [res]

/-- The trait object of a module, `src/ur20_16do_p.rs:31-69`. -/
instance : ToDyn Mod where
  toDyn oc self := {
    module_type := Mod.module_type oc self
    process_input_byte_count := Mod.process_input_byte_count oc self
    process_output_byte_count := Mod.process_output_byte_count oc self
    process_input_data := ur20_fbc_mod_tcp.ProcessModbusTcpData.process_input_data oc (Mod.module_type oc self)
    process_output_data := Mod.process_output_data oc self
    process_output_values := Mod.process_output_values oc self }

end Ur20.Src.ur20_16do_p
