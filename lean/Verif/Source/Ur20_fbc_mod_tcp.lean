import Verif.Source.FbcTrait
import Verif.Source.Util
import Verif.Source.Ur20_16do_p
import Verif.Source.Ur20_do_generic
import Verif.Source.Ur20_di_generic
import Verif.Source.Ur20_4ro_co_255
import Verif.Source.Ur20_4ao_ui_16
import Verif.Source.Ur20_4ao_ui_16_diag
import Verif.Source.Ur20_ai_ui_generic
import Verif.Source.Ur20_4ai_ui_16_diag
import Verif.Source.Ur20_8ai_i_16_diag_hd
import Verif.Source.Ur20_4ai_rtd_diag
import Verif.Source.Ur20_4ai_tc_diag
import Verif.Source.Ur20_2fcnt_100
import Verif.Source.Ur20_1com_232_485_422
import Verif.Source.Ur20_pf_o_1di_sil

/-!
# `src/ur20_fbc_mod_tcp.rs`, translated

Generated by `tools/rust2lean.py` from the source. Do not edit.
-/

set_option linter.unusedVariables false

namespace Ur20.Src.ur20_fbc_mod_tcp

/-- The fields of `ModuleOffset`, `src/ur20_fbc_mod_tcp.rs:65-68`. -/
def ModuleOffset.fields (x : ModuleOffset) : (Option Word) × (Option Word) :=
  (x.input, x.output)

/-- `ModuleOffset` has no other fields. -/
theorem ModuleOffset.fields_all (x : ModuleOffset) : x = { input := x.input, output := x.output } := rfl

/-- `Coupler`, `src/ur20_fbc_mod_tcp.rs:72-87`. -/
structure Coupler where
  inValues : List (List ChannelValue)
  outValues : List (List ChannelValue)
  write : HMap Address ChannelValue
  modules : List Dyn
  offsets : List ModuleOffset
  processors : HMap Nat Com.MessageProcessor
  lastTxCnt : Nat

/-- The fields of `CouplerConfig`, `src/ur20_fbc_mod_tcp.rs:91-100`. -/
def CouplerConfig.fields (x : CouplerConfig) : (List ModuleType) × (List Word) × (List (List Word)) :=
  (x.modules, x.offsets, x.params)

/-- `CouplerConfig` has no other fields. -/
theorem CouplerConfig.fields_all (x : CouplerConfig) : x = { modules := x.modules, offsets := x.offsets, params := x.params } := rfl

/-- `validate`, `src/ur20_fbc_mod_tcp.rs:314-322`. -/
def CouplerConfig.validate (oc : Bool) (self : CouplerConfig) :
    Res Unit := do
  let _ ← (if self.modules.length != self.params.length then
        (Res.err Error.bufferLength)
      else
        (pure ()))
  let t1 ← r_mul oc self.modules.length 2
  let _ ← (if t1 != self.offsets.length then
        (Res.err Error.moduleOffset)
      else
        (pure ()))
  pure ()

/-- `word_to_offset`, `src/ur20_fbc_mod_tcp.rs:456-458`. -/
def word_to_offset (oc : Bool) (word : Word) :
    Res (Option Word) := do
  (if word == 65535 then
    (pure none)
  else
    (pure (some word)))

/-- `offsets_of_process_data`, `src/ur20_fbc_mod_tcp.rs:327-336`. -/
def offsets_of_process_data (oc : Bool) (data : List Word) :
    Res (List ModuleOffset) := do
  let offsets : List ModuleOffset := []
  let t1 ← r_div oc data.length 2
  let t2 ← r_collect (r_range 0 t1)
  let offsets ← r_loop t2 offsets (fun offsets i =>
        (do
          let t3 ← r_mul oc i 2
          let t4 ← r_add oc t3 1
          let t5 ← r_index data t4
          let t6 ← word_to_offset oc t5
          let t7 ← r_mul oc i 2
          let t8 ← r_index data t7
          let t9 ← word_to_offset oc t8
          let offsets := offsets ++ [({ input := t6, output := t9 } : ModuleOffset)]
          pure offsets))
  pure offsets

/-- `new`, `src/ur20_fbc_mod_tcp.rs:103-210`. -/
def Coupler.new (oc : Bool) (cfg : CouplerConfig) :
    Res Coupler := do
  let _ ← CouplerConfig.validate oc cfg
  let t1 ← offsets_of_process_data oc cfg.offsets
  let offsets := t1
  let modules : List Dyn := []
  let processors : HMap Nat Com.MessageProcessor := HMap.new
  let t2 ← r_collect (r_enumerate (r_iter cfg.modules))
  let (processors, modules) ← r_loop t2 (processors, modules) (fun (processors, modules) (i, m) =>
        (do
          let t3 ← r_index cfg.params i
          let param_data := t3
          let (processors, x) ← (match m with
              | ModuleType.UR20_4DI_P =>
                (do
                  let t4 ← ur20_di_generic.Mod.from_modbus_parameter_data oc ModuleType.UR20_4DI_P param_data
                  let m := t4
                  pure (processors, (ToDyn.toDyn oc m)))
              | ModuleType.UR20_8DI_P_2W =>
                (do
                  let t5 ← ur20_di_generic.Mod.from_modbus_parameter_data oc ModuleType.UR20_8DI_P_2W param_data
                  let m := t5
                  pure (processors, (ToDyn.toDyn oc m)))
              | ModuleType.UR20_4DO_P =>
                (do
                  let t6 ← ur20_do_generic.Mod.from_modbus_parameter_data oc ModuleType.UR20_4DO_P param_data
                  let m := t6
                  pure (processors, (ToDyn.toDyn oc m)))
              | ModuleType.UR20_4DO_P_2A =>
                (do
                  let t7 ← ur20_do_generic.Mod.from_modbus_parameter_data oc ModuleType.UR20_4DO_P_2A param_data
                  let m := t7
                  pure (processors, (ToDyn.toDyn oc m)))
              | ModuleType.UR20_8DO_P =>
                (do
                  let t8 ← ur20_do_generic.Mod.from_modbus_parameter_data oc ModuleType.UR20_8DO_P param_data
                  let m := t8
                  pure (processors, (ToDyn.toDyn oc m)))
              | ModuleType.UR20_16DO_P =>
                (do
                  let t9 ← ur20_16do_p.Mod.from_modbus_parameter_data oc param_data
                  let m := t9
                  pure (processors, (ToDyn.toDyn oc m)))
              | ModuleType.UR20_4RO_CO_255 =>
                (do
                  let t10 ← ur20_4ro_co_255.Mod.from_modbus_parameter_data oc param_data
                  let m := t10
                  pure (processors, (ToDyn.toDyn oc m)))
              | ModuleType.UR20_4AO_UI_16 =>
                (do
                  let t11 ← ur20_4ao_ui_16.Mod.from_modbus_parameter_data oc param_data
                  let m := t11
                  pure (processors, (ToDyn.toDyn oc m)))
              | ModuleType.UR20_4AO_UI_16_DIAG =>
                (do
                  let t12 ← ur20_4ao_ui_16_diag.Mod.from_modbus_parameter_data oc param_data
                  let m := t12
                  pure (processors, (ToDyn.toDyn oc m)))
              | ModuleType.UR20_4AI_RTD_DIAG =>
                (do
                  let t13 ← ur20_4ai_rtd_diag.Mod.from_modbus_parameter_data oc param_data
                  let m := t13
                  pure (processors, (ToDyn.toDyn oc m)))
              | ModuleType.UR20_4AI_UI_16_DIAG =>
                (do
                  let t14 ← ur20_4ai_ui_16_diag.Mod.from_modbus_parameter_data oc param_data
                  let m := t14
                  pure (processors, (ToDyn.toDyn oc m)))
              | ModuleType.UR20_4AI_UI_12 =>
                (do
                  let t15 ← ur20_ai_ui_generic.Mod.from_modbus_parameter_data oc ModuleType.UR20_4AI_UI_12 param_data
                  let m := t15
                  pure (processors, (ToDyn.toDyn oc m)))
              | ModuleType.UR20_4AI_UI_16 =>
                (do
                  let t16 ← ur20_ai_ui_generic.Mod.from_modbus_parameter_data oc ModuleType.UR20_4AI_UI_16 param_data
                  let m := t16
                  pure (processors, (ToDyn.toDyn oc m)))
              | ModuleType.UR20_8AI_I_16_DIAG_HD =>
                (do
                  let t17 ← ur20_8ai_i_16_diag_hd.Mod.from_modbus_parameter_data oc param_data
                  let m := t17
                  pure (processors, (ToDyn.toDyn oc m)))
              | ModuleType.UR20_4AI_TC_DIAG =>
                (do
                  let t18 ← ur20_4ai_tc_diag.Mod.from_modbus_parameter_data oc param_data
                  let m := t18
                  pure (processors, (ToDyn.toDyn oc m)))
              | ModuleType.UR20_2FCNT_100 =>
                (do
                  let t19 ← ur20_2fcnt_100.Mod.from_modbus_parameter_data oc param_data
                  let m := t19
                  pure (processors, (ToDyn.toDyn oc m)))
              | ModuleType.UR20_1COM_232_485_422 =>
                (do
                  let t20 ← ur20_1com_232_485_422.Mod.from_modbus_parameter_data oc param_data
                  let m := t20
                  let t21 ← ur20_1com_232_485_422.MessageProcessor.new oc m.modParams.processDataLen
                  let processor := t21
                  let processors := r_insert processors i processor
                  pure (processors, (ToDyn.toDyn oc m)))
              | ModuleType.UR20_PF_O_1DI_SIL =>
                (do
                  let t22 ← ur20_pf_o_1di_sil.Mod.from_modbus_parameter_data oc param_data
                  let m := t22
                  pure (processors, (ToDyn.toDyn oc m)))
              | _ =>
                (Res.panic))
          let modules := modules ++ [x]
          pure (processors, modules)))
  pure ({ inValues := [], outValues := [], write := HMap.new, lastTxCnt := 0, modules := modules, offsets := offsets, processors := processors } : Coupler)

/-- `is_valid_addr`, `src/ur20_fbc_mod_tcp.rs:212-215`. -/
def Coupler.is_valid_addr (oc : Bool) (self : Coupler) (addr : Address) :
    Res Bool := do
  let t4 ← (if (decide (addr.module < self.modules.length)) then
        (do
          let t1 ← r_index self.modules addr.module
          let t2 ← t1.module_type
          let t3 ← lib.ModuleType.channel_count oc t2
          pure (decide (addr.channel < t3)))
      else (pure false))
  pure t4

/-- `inputs`, `src/ur20_fbc_mod_tcp.rs:219-221`. -/
def Coupler.inputs (oc : Bool) (self : Coupler) :
    Res (List (List ChannelValue)) := do
  pure self.inValues

/-- `outputs`, `src/ur20_fbc_mod_tcp.rs:225-227`. -/
def Coupler.outputs (oc : Bool) (self : Coupler) :
    Res (List (List ChannelValue)) := do
  pure self.outValues

/-- `set_output`, `src/ur20_fbc_mod_tcp.rs:243-249`. -/
def Coupler.set_output (oc : Bool) (self : Coupler) (addr : Address) (value : ChannelValue) :
    Ex Coupler (Coupler × Unit) := do
  let t1 ← Ex.at self (Coupler.is_valid_addr oc self addr)
  let _ ← (if !t1 then
        (Ex.at self (Res.err Error.address))
      else
        (pure ()))
  let self := { self with write := r_insert self.write addr value }
  pure (self, ())

/-- `to_register_address`, `src/ur20_fbc_mod_tcp.rs:462-466`. -/
def to_register_address (oc : Bool) (addr : Word) :
    Res (Word × Nat) := do
  let t1 ← r_shr oc (addr &&& 65520) 4
  let register := t1
  let bit := (r_as (addr &&& 15) : Nat)
  pure (register, bit)

/-- `prepare_raw_data_to_process`, `src/ur20_fbc_mod_tcp.rs:384-407`. -/
def prepare_raw_data_to_process (oc : Bool) (offset : Word) (addr : Word) (byte_count : Nat) (data : List Word) :
    Res (List Word) := do
  let t1 ← to_register_address oc offset
  let (start, bit) := t1
  let t2 ← r_sub oc start addr
  let start := (r_as t2 : Nat)
  let word_count ← (do
        let t3 ← r_div oc byte_count 2
        let cnt := t3
        (if cnt == 0 then
          (pure 1)
        else
          (pure cnt)))
  let t4 ← r_add oc start word_count
  let end_ := t4
  let _ ← (if decide (end_ > data.length) then
        (Res.err Error.bufferLength)
      else
        (pure ()))
  let t5 ← r_slice data start end_
  let output := t5
  (if bit == 0 then
    (pure (r_to_vec output))
  else if bit == 8 then
    (do
      let t6 ← util.shift_data oc output
      pure t6)
  else
    (Res.err Error.moduleOffset))

/-- `process_input_data`, `src/ur20_fbc_mod_tcp.rs:339-359`. -/
def process_input_data (oc : Bool) (modules : List (Dyn × ModuleOffset)) (data : List Word) :
    Res (List (List ChannelValue)) := do
  let t5 := r_map (r_iter modules)
      (fun (m, offset) =>
        (do
          (match offset.input with
          | some in_offset =>
            (do
              let t1 ← m.process_input_byte_count
              let cnt := t1
              let t2 ← prepare_raw_data_to_process oc in_offset ADDR_PACKED_PROCESS_INPUT_DATA cnt data
              m.process_input_data t2)
          | _ =>
            (do
              let t3 ← m.module_type
              let t4 ← lib.ModuleType.channel_count oc t3
              pure (List.replicate t4 ChannelValue.none)))))
  r_collect t5

/-- `process_output_data`, `src/ur20_fbc_mod_tcp.rs:362-382`. -/
def process_output_data (oc : Bool) (modules : List (Dyn × ModuleOffset)) (data : List Word) :
    Res (List (List ChannelValue)) := do
  let t5 := r_map (r_iter modules)
      (fun (m, offset) =>
        (do
          (match offset.output with
          | some out_offset =>
            (do
              let t1 ← m.process_output_byte_count
              let cnt := t1
              let t2 ← prepare_raw_data_to_process oc out_offset ADDR_PACKED_PROCESS_OUTPUT_DATA cnt data
              m.process_output_data t2)
          | _ =>
            (do
              let t3 ← m.module_type
              let t4 ← lib.ModuleType.channel_count oc t3
              pure (List.replicate t4 ChannelValue.none)))))
  r_collect t5

/-- `process_output_values`, `src/ur20_fbc_mod_tcp.rs:410-454`. -/
def process_output_values (oc : Bool) (modules : List (Dyn × ModuleOffset)) (values : List (List ChannelValue)) :
    Res (List Word) := do
  let _ ← (if modules.length != values.length then
        (Res.err Error.channelValue)
      else
        (pure ()))
  let out : List Word := []
  let t1 ← r_collect (r_enumerate (r_iter modules))
  let out ← r_loop t1 out (fun out (i, (m, offset)) =>
        (do
          let out ← (match offset.output with
              | some out_offset =>
                (do
                  let t2 ← r_index values i
                  let t3 ← m.process_output_values t2
                  let data := t3
                  let t4 ← to_register_address oc out_offset
                  let (start, bit) := t4
                  let _ ← (if decide (start < ADDR_PACKED_PROCESS_OUTPUT_DATA) then
                        (Res.err Error.moduleOffset)
                      else
                        (pure ()))
                  let t5 ← r_sub oc start ADDR_PACKED_PROCESS_OUTPUT_DATA
                  let start := (r_as t5 : Nat)
                  let out ← (if bit == 0 then
                        (do
                          let _ ← (if out.length != start then
                                (Res.err Error.moduleOffset)
                              else
                                (pure ()))
                          let out := out ++ data
                          pure out)
                      else if bit == 8 then
                        (do
                          let t6 ← r_add oc start 1
                          let _ ← (if out.length != t6 then
                                (Res.err Error.moduleOffset)
                              else
                                (pure ()))
                          let t7 ← r_index out start
                          let shared_low_byte := t7 &&& 255
                          let t8 ← util.u16_to_u8 oc data
                          let buf := t8
                          let t9 ← r_index buf 0
                          let t10 ← r_shl oc (r_from t9 : Word) 8
                          let shared_high_byte := t10
                          let word := shared_high_byte ||| shared_low_byte
                          let t11 ← r_set out start word
                          let out := t11
                          pure out)
                      else
                        (Res.err Error.moduleOffset))
                  pure out)
              | _ =>
                (pure out))
          pure out))
  pure out

/-- `next`, `src/ur20_fbc_mod_tcp.rs:251-310`. -/
def Coupler.next (oc : Bool) (self : Coupler) (process_input : List Word) (process_output : List Word) (order_in_bytes : HMap Nat ChannelValue → List (Nat × ChannelValue)) (order_out_bytes : HMap Nat ChannelValue → List (Nat × ChannelValue)) :
    Ex Coupler (Coupler × List Word) := do
  let t1 := r_map (r_zip (r_iter self.modules) (r_iter self.offsets))
      (fun (m, o) =>
        (pure (m, o)))
  let t2 ← Ex.at self (r_collect t1)
  let infos := t2
  let t3 ← Ex.at self (process_input_data oc infos process_input)
  let self := { self with inValues := t3 }
  let t4 ← Ex.at self (process_output_data oc infos process_output)
  let self := { self with outValues := t4 }
  let next_out_values := self.outValues
  let in_bytes : HMap Nat ChannelValue := HMap.new
  let out_bytes : HMap Nat ChannelValue := HMap.new
  let t5 ← Ex.at self (r_collect (r_enumerate (r_zip (r_iter self.inValues) (r_iter self.outValues))))
  let (out_bytes, in_bytes, self, next_out_values) ← r_loop t5 (out_bytes, in_bytes, self, next_out_values) (fun (out_bytes, in_bytes, self, next_out_values) (m_nr, (in_v, out_v)) =>
        (do
          let (out_bytes, in_bytes, self, next_out_values) ← (match r_get self.processors m_nr with
              | some p =>
                (do
                  let t6 ← Ex.at self (r_index in_v 0)
                  let (out_bytes, in_bytes, self, p, next_out_values) ← (match t6 with
                      | ChannelValue.comRsIn in_v =>
                        (do
                          let t7 ← Ex.at self (r_index out_v 0)
                          let (out_bytes, in_bytes, self, p, next_out_values) ← (match t7 with
                              | ChannelValue.comRsOut out_v =>
                                (do
                                  let out_bytes := r_insert out_bytes m_nr ChannelValue.none
                                  let in_bytes := r_insert in_bytes m_nr ChannelValue.none
                                  let out_bytes ← (if (!out_v.data.isEmpty) && (out_v.txCnt != self.lastTxCnt) then
                                        (do
                                          let out_bytes := r_insert out_bytes m_nr (ChannelValue.bytes out_v.data)
                                          pure out_bytes)
                                      else
                                        (pure out_bytes))
                                  let self := { self with lastTxCnt := out_v.txCnt }
                                  let t8 := r_get self.write ({ module := m_nr, channel := 0 } : Address)
                                  let self := { self with write := r_remove self.write ({ module := m_nr, channel := 0 } : Address) }
                                  let (self, p) ← (match t8 with
                                      | some (ChannelValue.bytes data) =>
                                        (do
                                          let t9 ← Ex.at self (r_write_all (ur20_1com_232_485_422.MessageProcessor.write oc) p data)
                                          let p := t9
                                          let self := { self with processors := r_insert self.processors m_nr p }
                                          pure (self, p))
                                      | _ =>
                                        (pure (self, p)))
                                  let t10 ← Ex.at self (ur20_1com_232_485_422.MessageProcessor.next oc p in_v out_v)
                                  let p := t10.1
                                  let self := { self with processors := r_insert self.processors m_nr p }
                                  let rs_out := t10.2
                                  let t11 ← Ex.at self (r_index next_out_values m_nr)
                                  let t12 ← Ex.at self (r_set t11 0 (ChannelValue.comRsOut rs_out))
                                  let t13 ← Ex.at self (r_set next_out_values m_nr t12)
                                  let next_out_values := t13
                                  let in_bytes ← (if in_v.dataAvailable && (!in_v.data.isEmpty) then
                                        (do
                                          let in_bytes := r_insert in_bytes m_nr (ChannelValue.bytes in_v.data)
                                          pure in_bytes)
                                      else
                                        (pure in_bytes))
                                  pure (out_bytes, in_bytes, self, p, next_out_values))
                              | _ =>
                                (pure (out_bytes, in_bytes, self, p, next_out_values)))
                          pure (out_bytes, in_bytes, self, p, next_out_values))
                      | _ =>
                        (pure (out_bytes, in_bytes, self, p, next_out_values)))
                  pure (out_bytes, in_bytes, self, next_out_values))
              | _ =>
                (do
                  let t14 ← Ex.at self (r_collect (r_enumerate (r_iter out_v)))
                  let (self, next_out_values) ← r_loop t14 (self, next_out_values) (fun (self, next_out_values) (i, _) =>
                        (do
                          let t15 := r_get self.write ({ module := m_nr, channel := i } : Address)
                          let self := { self with write := r_remove self.write ({ module := m_nr, channel := i } : Address) }
                          let (self, next_out_values) ← (match t15 with
                              | some v =>
                                (do
                                  let t16 ← Ex.at self (r_index next_out_values m_nr)
                                  let t17 ← Ex.at self (r_set t16 i v)
                                  let t18 ← Ex.at self (r_set next_out_values m_nr t17)
                                  let next_out_values := t18
                                  pure (self, next_out_values))
                              | _ =>
                                (pure (self, next_out_values)))
                          pure (self, next_out_values)))
                  pure (out_bytes, in_bytes, self, next_out_values)))
          pure (out_bytes, in_bytes, self, next_out_values)))
  let self ← r_loop (order_in_bytes in_bytes) self (fun self (m_nr, v) =>
        (do
          let t19 ← Ex.at self (r_index self.inValues m_nr)
          let t20 ← Ex.at self (r_set t19 0 v)
          let t21 ← Ex.at self (r_set self.inValues m_nr t20)
          let self := { self with inValues := t21 }
          pure self))
  let self ← r_loop (order_out_bytes out_bytes) self (fun self (m_nr, v) =>
        (do
          let t22 ← Ex.at self (r_index self.outValues m_nr)
          let t23 ← Ex.at self (r_set t22 0 v)
          let t24 ← Ex.at self (r_set self.outValues m_nr t23)
          let self := { self with outValues := t24 }
          pure self))
  let t25 ← Ex.at self (process_output_values oc infos next_out_values)
  pure (self, t25)

/-- `to_bit_address`, `src/ur20_fbc_mod_tcp.rs:470-472`. -/
def to_bit_address (oc : Bool) (addr : Word) (bit : Nat) :
    Res Word := do
  let t1 ← r_shl oc addr 4
  pure (t1 ||| (r_as bit : Word))

/-- `param_register_count`, `src/ur20_fbc_mod_tcp.rs:480-520`. -/
def ModuleType.param_register_count (oc : Bool) (self : ModuleType) :
    Res Word := do
  (match self with
  | ModuleType.UR20_4DI_P | ModuleType.UR20_4DI_P_3W =>
    (pure 4)
  | ModuleType.UR20_8DI_P_2W | ModuleType.UR20_8DI_P_3W =>
    (pure 8)
  | ModuleType.UR20_4DO_P | ModuleType.UR20_4DO_P_2A =>
    (pure 4)
  | ModuleType.UR20_8DO_P =>
    (pure 8)
  | ModuleType.UR20_16DO_P =>
    (pure 0)
  | ModuleType.UR20_4RO_CO_255 =>
    (pure 4)
  | ModuleType.UR20_8AI_I_16_DIAG_HD =>
    (pure 33)
  | ModuleType.UR20_4AI_UI_16_DIAG =>
    (pure 21)
  | ModuleType.UR20_4AI_UI_12 | ModuleType.UR20_4AI_UI_16 =>
    (pure 9)
  | ModuleType.UR20_4AI_TC_DIAG =>
    (pure 29)
  | ModuleType.UR20_4AO_UI_16 =>
    (pure 12)
  | ModuleType.UR20_4AO_UI_16_DIAG =>
    (pure 16)
  | ModuleType.UR20_4AI_RTD_DIAG =>
    (pure 29)
  | ModuleType.UR20_2FCNT_100 =>
    (pure 2)
  | ModuleType.UR20_1COM_232_485_422 =>
    (pure 10)
  | ModuleType.UR20_PF_O_1DI_SIL =>
    (pure 0)
  | _ =>
    (Res.panic))

/-- `param_addresses_and_register_counts`, `src/ur20_fbc_mod_tcp.rs:525-536`. -/
def param_addresses_and_register_counts (oc : Bool) (modules : List ModuleType) :
    Res (List (Word × Word)) := do
  let t4 := r_map (r_enumerate (r_iter modules))
      (fun (idx, m) =>
        (do
          let t1 ← r_mul oc idx 256
          let t2 ← r_add oc ADDR_MODULE_PARAMETERS (r_as t1 : Word)
          let t3 ← ModuleType.param_register_count oc m
          pure (t2, t3)))
  let t5 ← r_collect t4
  pure t5

/-- `module_list_from_registers`, `src/ur20_fbc_mod_tcp.rs:539-553`. -/
def module_list_from_registers (oc : Bool) (registers : List Word) :
    Res (List ModuleType) := do
  let t2 ← (if registers.isEmpty then (pure true) else
        (do
          let t1 ← r_rem oc registers.length 2
          pure (t1 != 0)))
  let _ ← (if t2 then
        (Res.err Error.registerCount)
      else
        (pure ()))
  let list : List ModuleType := []
  let t3 ← r_div oc registers.length 2
  let t4 ← r_collect (r_range 0 t3)
  let list ← r_loop t4 list (fun list i =>
        (do
          let idx := i
          let t5 ← r_mul oc idx 2
          let t6 ← r_index registers t5
          let hi := (r_from t6 : BitVec 32)
          let t7 ← r_mul oc idx 2
          let t8 ← r_add oc t7 1
          let t9 ← r_index registers t8
          let lo := (r_from t9 : BitVec 32)
          let t10 ← r_shl oc hi 16
          let t11 ← r_add oc t10 lo
          let id := t11
          let t12 ← lib.ModuleType.try_from_u32 oc id
          let m := t12
          let list := list ++ [m]
          pure list))
  pure list

end Ur20.Src.ur20_fbc_mod_tcp
