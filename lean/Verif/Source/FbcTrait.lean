import Verif.Source.Lib

/-!
# `src/ur20_fbc_mod_tcp.rs`, translated

Generated by `tools/rust2lean.py` from the source. Do not edit.
-/

set_option linter.unusedVariables false

namespace Ur20.Src.ur20_fbc_mod_tcp

/-- `ADDR_PACKED_PROCESS_INPUT_DATA`, `src/ur20_fbc_mod_tcp.rs:15-15`. -/
def ADDR_PACKED_PROCESS_INPUT_DATA : Word := 0

/-- `ADDR_PACKED_PROCESS_OUTPUT_DATA`, `src/ur20_fbc_mod_tcp.rs:16-16`. -/
def ADDR_PACKED_PROCESS_OUTPUT_DATA : Word := 2048

/-- `ADDR_PROCESS_OUTPUT_LEN`, `src/ur20_fbc_mod_tcp.rs:17-17`. -/
def ADDR_PROCESS_OUTPUT_LEN : Word := 4112

/-- `ADDR_PROCESS_INPUT_LEN`, `src/ur20_fbc_mod_tcp.rs:18-18`. -/
def ADDR_PROCESS_INPUT_LEN : Word := 4113

/-- `ADDR_COUPLER_ID`, `src/ur20_fbc_mod_tcp.rs:19-19`. -/
def ADDR_COUPLER_ID : Word := 4096

/-- `ADDR_COUPLER_STATUS`, `src/ur20_fbc_mod_tcp.rs:20-20`. -/
def ADDR_COUPLER_STATUS : Word := 4108

/-- `ADDR_CURRENT_MODULE_COUNT`, `src/ur20_fbc_mod_tcp.rs:21-21`. -/
def ADDR_CURRENT_MODULE_COUNT : Word := 10238

/-- `ADDR_CURRENT_MODULE_LIST`, `src/ur20_fbc_mod_tcp.rs:22-22`. -/
def ADDR_CURRENT_MODULE_LIST : Word := 10752

/-- `ADDR_MODULE_OFFSETS`, `src/ur20_fbc_mod_tcp.rs:23-23`. -/
def ADDR_MODULE_OFFSETS : Word := 11008

/-- `ADDR_MODULE_PARAMETERS`, `src/ur20_fbc_mod_tcp.rs:24-24`. -/
def ADDR_MODULE_PARAMETERS : Word := 49152

/-- `process_input_data`, `src/ur20_fbc_mod_tcp.rs:32-38`. -/
def ProcessModbusTcpData.process_input_data (oc : Bool) (module_type : Res ModuleType) (data : List Word) :
    Res (List ChannelValue) := do
  let _ ← (if !data.isEmpty then
        (Res.err Error.bufferLength)
      else
        (pure ()))
  let t1 ← module_type
  let t2 ← lib.ModuleType.channel_count oc t1
  let channel_cnt := t2
  pure (List.replicate channel_cnt ChannelValue.none)

/-- `process_output_data`, `src/ur20_fbc_mod_tcp.rs:40-46`. -/
def ProcessModbusTcpData.process_output_data (oc : Bool) (module_type : Res ModuleType) (data : List Word) :
    Res (List ChannelValue) := do
  let _ ← (if !data.isEmpty then
        (Res.err Error.bufferLength)
      else
        (pure ()))
  let t1 ← module_type
  let t2 ← lib.ModuleType.channel_count oc t1
  let channel_cnt := t2
  pure (List.replicate channel_cnt ChannelValue.none)

/-- `process_output_values`, `src/ur20_fbc_mod_tcp.rs:48-53`. -/
def ProcessModbusTcpData.process_output_values (oc : Bool) (module_type : Res ModuleType) (values : List ChannelValue) :
    Res (List Word) := do
  let t3 ← (if (!values.isEmpty) then
        (do
          let t1 ← module_type
          let t2 ← lib.ModuleType.channel_count oc t1
          pure (values.length != t2))
      else (pure false))
  let _ ← (if t3 then
        (Res.err Error.channelValue)
      else
        (pure ()))
  pure []

end Ur20.Src.ur20_fbc_mod_tcp
