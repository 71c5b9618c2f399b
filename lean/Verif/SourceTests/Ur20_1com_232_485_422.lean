import Verif.Source.Ur20_1com_232_485_422
import Verif.SourceTests.Prelude

/-!
# The unit tests of `src/ur20_1com_232_485_422.rs`, translated

Generated by `tools/tests2lean.py` from the source. Do not edit.
-/

set_option linter.unusedVariables false

namespace Ur20.Src.ur20_1com_232_485_422

deriving instance DecidableEq for ModuleParameters

deriving instance DecidableEq for ChannelParameters

/-- `try_process_input_data_data_from_empty_byte_message`, `src/ur20_1com_232_485_422.rs:576-585`. -/
def rs_try_process_input_data_data_from_empty_byte_message (oc : Bool) : Res Unit := do
  let byte_msg : List Byte := [0, 0]
  let t1 ← r_unwrap (ProcessInput.try_from_byte_message oc byte_msg)
  let msg := t1
  let _ ← r_assert (!msg.dataAvailable)
  let _ ← r_assert (!msg.bufferNearlyFull)
  let _ ← r_assert (decide (msg.rxCnt = 0))
  let _ ← r_assert (decide (msg.txCntAck = 0))
  let _ ← r_assert (!msg.ready)
  let _ ← r_assert (decide (msg.data = []))
  pure ()

example : rs_try_process_input_data_data_from_empty_byte_message true = .ok () ∧ rs_try_process_input_data_data_from_empty_byte_message false = .ok () := by
  decide +kernel

/-- `try_process_input_data_data_from_invalid_byte_message`, `src/ur20_1com_232_485_422.rs:588-597`. -/
def rs_try_process_input_data_data_from_invalid_byte_message (oc : Bool) : Res Unit := do
  let t1 ← r_unwrap_err (ProcessInput.try_from_byte_message oc [0])
  let too_small_err := t1
  let t2 ← r_unwrap_err (ProcessInput.try_from_byte_message oc [0, 5, 0])
  let missmatched_len_err := t2
  let ok_res ← r_capture (ProcessInput.try_from_byte_message oc [0, 5, 0, 0, 0, 0, 0])
  let _ ← r_assert (decide (too_small_err = Error.bufferLength))
  let _ ← r_assert (decide (missmatched_len_err = Error.bufferLength))
  let t3 ← r_is_ok (r_release ok_res)
  let _ ← r_assert t3
  pure ()

example : rs_try_process_input_data_data_from_invalid_byte_message true = .ok () ∧ rs_try_process_input_data_data_from_invalid_byte_message false = .ok () := by
  decide +kernel

/-- `try_process_input_data_data_from_valid_byte_message`, `src/ur20_1com_232_485_422.rs:600-609`. -/
def rs_try_process_input_data_data_from_valid_byte_message (oc : Bool) : Res Unit := do
  let byte_msg : List Byte := [241, 3, 0, 15, 5]
  let t1 ← r_unwrap (ProcessInput.try_from_byte_message oc byte_msg)
  let msg := t1
  let _ ← r_assert msg.dataAvailable
  let _ ← r_assert (!msg.bufferNearlyFull)
  let _ ← r_assert (decide (msg.rxCnt = 2))
  let _ ← r_assert (decide (msg.txCntAck = 3))
  let _ ← r_assert msg.ready
  let _ ← r_assert (decide (msg.data = [0, 15, 5]))
  pure ()

example : rs_try_process_input_data_data_from_valid_byte_message true = .ok () ∧ rs_try_process_input_data_data_from_valid_byte_message false = .ok () := by
  decide +kernel

/-- `try_invalid_process_output_data_into_byte_message`, `src/ur20_1com_232_485_422.rs:612-634`. -/
def rs_try_invalid_process_output_data_into_byte_message (oc : Bool) : Res Unit := do
  let t1 ← ProcessOutput.default oc
  let msg1 := t1
  let t2 ← ProcessOutput.default oc
  let msg2 := t2
  let t3 ← ProcessOutput.default oc
  let msg3 := t3
  let msg1 := { msg1 with txCnt := 4 }
  let msg2 := { msg2 with rxCntAck := 4 }
  let msg3 := { msg3 with data := [0, 0, 0, 0, 0, 0, 0] }
  let t4 ← r_unwrap_err (ProcessOutput.try_into_byte_message oc msg1 ProcessDataLength.EightBytes)
  let err1 := t4
  let t5 ← r_unwrap_err (ProcessOutput.try_into_byte_message oc msg2 ProcessDataLength.EightBytes)
  let err2 := t5
  let t6 ← r_unwrap_err (ProcessOutput.try_into_byte_message oc msg3 ProcessDataLength.EightBytes)
  let err3 := t6
  let _ ← r_assert (decide (err1 = Error.sequenceNumber))
  let _ ← r_assert (decide (err2 = Error.sequenceNumber))
  let _ ← r_assert (decide (err3 = Error.dataLength))
  pure ()

example : rs_try_invalid_process_output_data_into_byte_message true = .ok () ∧ rs_try_invalid_process_output_data_into_byte_message false = .ok () := by
  decide +kernel

/-- `try_valid_process_output_data_into_byte_message`, `src/ur20_1com_232_485_422.rs:637-696`. -/
def rs_try_valid_process_output_data_into_byte_message (oc : Bool) : Res Unit := do
  let t1 ← ProcessOutput.default oc
  let default := t1
  let msg := default
  let msg := { msg with reset := false }
  let t2 ← r_unwrap (ProcessOutput.try_into_byte_message oc msg ProcessDataLength.EightBytes)
  let empty := t2
  let msg := default
  let msg := { msg with rxBufFlush := true }
  let t3 ← r_unwrap (ProcessOutput.try_into_byte_message oc msg ProcessDataLength.EightBytes)
  let flush_rx_buf := t3
  let msg := default
  let msg := { msg with txBufFlush := true }
  let t4 ← r_unwrap (ProcessOutput.try_into_byte_message oc msg ProcessDataLength.EightBytes)
  let flush_tx_buf := t4
  let msg := default
  let msg := { msg with disableTxHwBuffer := true }
  let t5 ← r_unwrap (ProcessOutput.try_into_byte_message oc msg ProcessDataLength.EightBytes)
  let disable_tx_hw_buffer := t5
  let msg := default
  let msg := { msg with txCnt := 3 }
  let t6 ← r_unwrap (ProcessOutput.try_into_byte_message oc msg ProcessDataLength.EightBytes)
  let tx_cnt := t6
  let msg := default
  let msg := { msg with rxCntAck := 3 }
  let t7 ← r_unwrap (ProcessOutput.try_into_byte_message oc msg ProcessDataLength.EightBytes)
  let rx_cnt_ack := t7
  let msg := default
  let msg := { msg with reset := true }
  let t8 ← r_unwrap (ProcessOutput.try_into_byte_message oc msg ProcessDataLength.EightBytes)
  let reset := t8
  let msg := default
  let msg := { msg with data := [4, 3, 2, 1] }
  let t9 ← r_unwrap (ProcessOutput.try_into_byte_message oc msg ProcessDataLength.EightBytes)
  let data := t9
  let _ ← r_assert (decide (empty = [0, 0, 0, 0, 0, 0, 0, 0]))
  let t10 ← r_index flush_rx_buf 0
  let _ ← r_assert (decide (t10 = 1))
  let t11 ← r_index flush_tx_buf 0
  let _ ← r_assert (decide (t11 = 2))
  let t12 ← r_index disable_tx_hw_buffer 0
  let _ ← r_assert (decide (t12 = 4))
  let t13 ← r_index tx_cnt 0
  let _ ← r_assert (decide (t13 = 24))
  let t14 ← r_index rx_cnt_ack 0
  let _ ← r_assert (decide (t14 = 96))
  let t15 ← r_index reset 0
  let _ ← r_assert (decide (t15 = 128))
  let _ ← r_assert (decide (data = [0, 4, 4, 3, 2, 1, 0, 0]))
  pure ()

example : rs_try_valid_process_output_data_into_byte_message true = .ok () ∧ rs_try_valid_process_output_data_into_byte_message false = .ok () := by
  decide +kernel

/-- `try_process_output_from_valid_byte_message`, `src/ur20_1com_232_485_422.rs:699-709`. -/
def rs_try_process_output_from_valid_byte_message (oc : Bool) : Res Unit := do
  let byte_msg : List Byte := [90, 3, 0, 14, 7]
  let t1 ← r_unwrap (ProcessOutput.try_from_byte_message oc byte_msg)
  let msg := t1
  let _ ← r_assert (!msg.rxBufFlush)
  let _ ← r_assert msg.txBufFlush
  let _ ← r_assert (!msg.disableTxHwBuffer)
  let _ ← r_assert (decide (msg.txCnt = 3))
  let _ ← r_assert (decide (msg.rxCntAck = 2))
  let _ ← r_assert (!msg.reset)
  let _ ← r_assert (decide (msg.data = [0, 14, 7]))
  pure ()

example : rs_try_process_output_from_valid_byte_message true = .ok () ∧ rs_try_process_output_from_valid_byte_message false = .ok () := by
  decide +kernel

/-- `test_process_input_data_with_empty_buffer`, `src/ur20_1com_232_485_422.rs:712-715`. -/
def rs_test_process_input_data_with_empty_buffer (oc : Bool) : Res Unit := do
  let t1 ← Mod.default oc
  let m := t1
  let t2 ← r_is_err ((ToDyn.toDyn oc m).process_input_data [])
  let _ ← r_assert t2
  pure ()

example : rs_test_process_input_data_with_empty_buffer true = .ok () ∧ rs_test_process_input_data_with_empty_buffer false = .ok () := by
  decide +kernel

/-- `try_process_output_data_from_valid_data`, `src/ur20_1com_232_485_422.rs:718-734`. -/
def rs_try_process_output_data_from_valid_data (oc : Bool) : Res Unit := do
  let t1 ← Mod.default oc
  let m := t1
  let data : List Word := [858, 3584, 7]
  let t2 ← r_unwrap ((ToDyn.toDyn oc m).process_output_data data)
  let values := t2
  let _ ← r_assert (decide (values.length = 1))
  let t3 ← r_index values 0
  let _ ← (match t3 with
      | ChannelValue.comRsOut out =>
        (do
          let _ ← r_assert (!out.rxBufFlush)
          let _ ← r_assert out.txBufFlush
          let _ ← r_assert (!out.disableTxHwBuffer)
          let _ ← r_assert (decide (out.txCnt = 3))
          let _ ← r_assert (decide (out.rxCntAck = 2))
          let _ ← r_assert (!out.reset)
          let _ ← r_assert (decide (out.data = [0, 14, 7]))
          pure ())
      | _ =>
        (Res.panic))
  pure ()

example : rs_try_process_output_data_from_valid_data true = .ok () ∧ rs_try_process_output_data_from_valid_data false = .ok () := by
  decide +kernel

/-- `test_process_output_data_with_empty_buffer`, `src/ur20_1com_232_485_422.rs:737-740`. -/
def rs_test_process_output_data_with_empty_buffer (oc : Bool) : Res Unit := do
  let t1 ← Mod.default oc
  let m := t1
  let t2 ← r_is_err ((ToDyn.toDyn oc m).process_output_data [])
  let _ ← r_assert t2
  pure ()

example : rs_test_process_output_data_with_empty_buffer true = .ok () ∧ rs_test_process_output_data_with_empty_buffer false = .ok () := by
  decide +kernel

/-- `test_process_input_data_with_valid_input_data`, `src/ur20_1com_232_485_422.rs:743-751`. -/
def rs_test_process_input_data_with_valid_input_data (oc : Bool) : Res Unit := do
  let t1 ← Mod.default oc
  let m := t1
  let t2 ← r_unwrap ((ToDyn.toDyn oc m).process_input_data [1536, 0, 43981, 0])
  let result := t2
  let t3 ← r_index result 0
  let _ ← (match t3 with
      | ChannelValue.comRsIn msg =>
        (do
          let _ ← r_assert (decide (msg.data = [0, 0, 205, 171, 0, 0]))
          pure ())
      | _ =>
        (Res.panic))
  pure ()

example : rs_test_process_input_data_with_valid_input_data true = .ok () ∧ rs_test_process_input_data_with_valid_input_data false = .ok () := by
  decide +kernel

/-- `test_process_output_values_with_invalid_input_len`, `src/ur20_1com_232_485_422.rs:754-764`. -/
def rs_test_process_output_values_with_invalid_input_len (oc : Bool) : Res Unit := do
  let t1 ← Mod.default oc
  let m := t1
  let t2 ← r_is_err ((ToDyn.toDyn oc m).process_output_values [])
  let _ ← r_assert t2
  let t3 ← ProcessInput.default oc
  let t4 ← ProcessInput.default oc
  let t5 ← r_is_err ((ToDyn.toDyn oc m).process_output_values [ChannelValue.comRsIn t3, ChannelValue.comRsIn t4])
  let _ ← r_assert t5
  pure ()

example : rs_test_process_output_values_with_invalid_input_len true = .ok () ∧ rs_test_process_output_values_with_invalid_input_len false = .ok () := by
  decide +kernel

/-- `test_process_output_values_with_invalid_channel_data`, `src/ur20_1com_232_485_422.rs:767-773`. -/
def rs_test_process_output_values_with_invalid_channel_data (oc : Bool) : Res Unit := do
  let t1 ← Mod.default oc
  let m := t1
  let t2 ← r_is_err ((ToDyn.toDyn oc m).process_output_values [ChannelValue.decimal32 (F32.lit 0)])
  let _ ← r_assert t2
  pure ()

example : rs_test_process_output_values_with_invalid_channel_data true = .ok () ∧ rs_test_process_output_values_with_invalid_channel_data false = .ok () := by
  decide +kernel

/-- `test_process_output_values_with_invalid_byte_len`, `src/ur20_1com_232_485_422.rs:777-824`. -/
def rs_test_process_output_values_with_invalid_byte_len (oc : Bool) : Res Unit := do
  let t1 ← Mod.default oc
  let m := t1
  let t2 ← ProcessOutput.default oc
  let fourteen := t2
  let fourteen := { fourteen with data := List.replicate 14 0 }
  let t3 ← ProcessOutput.default oc
  let fifteen := t3
  let fifteen := { fifteen with data := List.replicate 15 0 }
  let t4 ← ProcessOutput.default oc
  let six := t4
  let six := { six with data := List.replicate 6 0 }
  let t5 ← ProcessOutput.default oc
  let seven := t5
  let seven := { seven with data := List.replicate 7 0 }
  let t6 ← ProcessOutput.default oc
  let five := t6
  let five := { five with data := [0, 5] }
  let t7 ← r_is_ok ((ToDyn.toDyn oc m).process_output_values [ChannelValue.comRsOut five])
  let _ ← r_assert t7
  let t8 ← r_is_ok ((ToDyn.toDyn oc m).process_output_values [ChannelValue.comRsOut fourteen])
  let _ ← r_assert t8
  let t9 ← r_is_err ((ToDyn.toDyn oc m).process_output_values [ChannelValue.comRsOut fifteen])
  let _ ← r_assert t9
  let m := { m with modParams := { m.modParams with processDataLen := ProcessDataLength.EightBytes } }
  let t10 ← r_is_err ((ToDyn.toDyn oc m).process_output_values [ChannelValue.comRsOut fourteen])
  let _ ← r_assert t10
  let t11 ← r_is_err ((ToDyn.toDyn oc m).process_output_values [ChannelValue.comRsOut seven])
  let _ ← r_assert t11
  let t12 ← r_is_ok ((ToDyn.toDyn oc m).process_output_values [ChannelValue.comRsOut six])
  let _ ← r_assert t12
  pure ()

example : rs_test_process_output_values_with_invalid_byte_len true = .ok () ∧ rs_test_process_output_values_with_invalid_byte_len false = .ok () := by
  decide +kernel

/-- `test_process_output_values`, `src/ur20_1com_232_485_422.rs:828-838`. -/
def rs_test_process_output_values (oc : Bool) : Res Unit := do
  let t1 ← Mod.default oc
  let m := t1
  let m := { m with modParams := { m.modParams with processDataLen := ProcessDataLength.SixteenBytes } }
  let t2 ← ProcessOutput.default oc
  let out := t2
  let out := { out with data := [10, 11, 0, 12] }
  let t3 ← r_unwrap ((ToDyn.toDyn oc m).process_output_values [ChannelValue.comRsOut out])
  let res := t3
  let _ ← r_assert (decide (res.length = 8))
  let _ ← r_assert (decide (res = [1024, 2826, 3072, 0, 0, 0, 0, 0]))
  pure ()

example : rs_test_process_output_values true = .ok () ∧ rs_test_process_output_values false = .ok () := by
  decide +kernel

/-- `test_eight_byte_message_processor_send_process`, `src/ur20_1com_232_485_422.rs:841-914`. -/
def rs_test_eight_byte_message_processor_send_process (oc : Bool) : Res Unit := do
  let t1 ← MessageProcessor.new oc ProcessDataLength.EightBytes
  let p := t1
  let p := { p with initState := Com.InitState.done }
  let t2 ← ProcessInput.default oc
  let input := t2
  let t3 ← ProcessOutput.default oc
  let output := t3
  let input := { input with ready := true }
  let _ ← r_assert (!input.dataAvailable)
  let t4 ← MessageProcessor.next oc p input output
  let p := t4.1
  let _ ← r_assert (decide (t4.2 = output))
  let t5 ← r_write_all (ur20_1com_232_485_422.MessageProcessor.write oc) p [84, 104, 105, 115, 32, 109, 115, 103, 32, 105, 115, 32, 62, 54, 32, 98, 121, 116, 101, 115]
  let p := t5
  let _ ← r_assert (decide (input.txCntAck = 0))
  let _ ← r_assert (!input.dataAvailable)
  let t6 ← MessageProcessor.next oc p input output
  let p := t6.1
  let output := t6.2
  let _ ← r_assert (decide (output.data = [84, 104, 105, 115, 32, 109]))
  let _ ← r_assert (decide (output.txCnt = 1))
  let _ ← r_assert (decide (input.txCntAck = 0))
  let t7 ← MessageProcessor.next oc p input output
  let p := t7.1
  let _ ← r_assert (decide (t7.2 = output))
  let input := { input with txCntAck := 1 }
  let t8 ← MessageProcessor.next oc p input output
  let p := t8.1
  let output := t8.2
  let _ ← r_assert (decide (output.txCnt = 2))
  let _ ← r_assert (decide (output.data = [115, 103, 32, 105, 115, 32]))
  let input := { input with txCntAck := 2 }
  let t9 ← MessageProcessor.next oc p input output
  let p := t9.1
  let output := t9.2
  let _ ← r_assert (decide (output.txCnt = 3))
  let _ ← r_assert (decide (output.data = [62, 54, 32, 98, 121, 116]))
  let input := { input with txCntAck := 3 }
  let t10 ← MessageProcessor.next oc p input output
  let p := t10.1
  let output := t10.2
  let _ ← r_assert (decide (output.txCnt = 0))
  let _ ← r_assert (decide (output.data = [101, 115]))
  let input := { input with txCntAck := 3 }
  let t11 ← MessageProcessor.next oc p input output
  let p := t11.1
  let _ ← r_assert (decide (t11.2 = output))
  pure ()

example : rs_test_eight_byte_message_processor_send_process true = .ok () ∧ rs_test_eight_byte_message_processor_send_process false = .ok () := by
  decide +kernel

/-- `test_sixteen_byte_message_processor_send_process`, `src/ur20_1com_232_485_422.rs:917-931`. -/
def rs_test_sixteen_byte_message_processor_send_process (oc : Bool) : Res Unit := do
  let t1 ← MessageProcessor.new oc ProcessDataLength.SixteenBytes
  let p := t1
  let p := { p with initState := Com.InitState.done }
  let t2 ← ProcessInput.default oc
  let input := t2
  let t3 ← ProcessOutput.default oc
  let output := t3
  let input := { input with ready := true }
  let t4 ← r_write_all (ur20_1com_232_485_422.MessageProcessor.write oc) p [84, 104, 105, 115, 32, 109, 115, 103, 32, 105, 115, 32, 62, 49, 52, 32, 98, 121, 116, 101, 115]
  let p := t4
  let t5 ← MessageProcessor.next oc p input output
  let p := t5.1
  let output := t5.2
  let _ ← r_assert (decide (output.data = [84, 104, 105, 115, 32, 109, 115, 103, 32, 105, 115, 32, 62, 49]))
  let _ ← r_assert (decide (output.txCnt = 1))
  let input := { input with txCntAck := 1 }
  let t6 ← MessageProcessor.next oc p input output
  let p := t6.1
  let output := t6.2
  let _ ← r_assert (decide (output.data = [52, 32, 98, 121, 116, 101, 115]))
  pure ()

example : rs_test_sixteen_byte_message_processor_send_process true = .ok () ∧ rs_test_sixteen_byte_message_processor_send_process false = .ok () := by
  decide +kernel

/-- `test_initial_message_processor_send_process`, `src/ur20_1com_232_485_422.rs:934-964`. -/
def rs_test_initial_message_processor_send_process (oc : Bool) : Res Unit := do
  let t1 ← MessageProcessor.new oc ProcessDataLength.SixteenBytes
  let p := t1
  let t2 ← ProcessInput.default oc
  let input := t2
  let t3 ← ProcessOutput.default oc
  let output := t3
  let input := { input with ready := true }
  let t4 ← r_write_all (ur20_1com_232_485_422.MessageProcessor.write oc) p [84, 104, 105, 115, 32, 109, 115, 103, 32, 105, 115, 32, 62, 49, 52, 32, 98, 121, 116, 101, 115]
  let p := t4
  let _ ← r_assert (decide (p.initState = Com.InitState.clearBuffers))
  let t5 ← MessageProcessor.next oc p input output
  let p := t5.1
  let output := t5.2
  let _ ← r_assert output.rxBufFlush
  let _ ← r_assert output.txBufFlush
  let _ ← r_assert (!output.reset)
  let _ ← r_assert (decide (p.initState = Com.InitState.reset))
  let t6 ← MessageProcessor.next oc p input output
  let p := t6.1
  let output := t6.2
  let _ ← r_assert (!output.rxBufFlush)
  let _ ← r_assert (!output.txBufFlush)
  let _ ← r_assert output.reset
  let _ ← r_assert (decide (p.initState = Com.InitState.done))
  let _ ← r_assert (decide (p.lastRxCnt = 4))
  let _ ← r_assert (decide (output.data = []))
  let _ ← r_assert (decide (output.txCnt = 0))
  let t7 ← MessageProcessor.next oc p input output
  let p := t7.1
  let output := t7.2
  let _ ← r_assert (decide (output.data = [84, 104, 105, 115, 32, 109, 115, 103, 32, 105, 115, 32, 62, 49]))
  let _ ← r_assert (decide (output.txCnt = 1))
  let input := { input with txCntAck := 1 }
  pure ()

example : rs_test_initial_message_processor_send_process true = .ok () ∧ rs_test_initial_message_processor_send_process false = .ok () := by
  decide +kernel

/-- `test_eight_byte_message_processor_receive_process`, `src/ur20_1com_232_485_422.rs:967-1005`. -/
def rs_test_eight_byte_message_processor_receive_process (oc : Bool) : Res Unit := do
  let t1 ← MessageProcessor.new oc ProcessDataLength.EightBytes
  let p := t1
  let t2 ← ProcessInput.default oc
  let input := t2
  let t3 ← ProcessOutput.default oc
  let output := t3
  let buf : List Byte := List.replicate 11 0
  let input := { input with ready := true }
  let _ ← r_assert (!input.dataAvailable)
  let t4 ← MessageProcessor.next oc p input output
  let p := t4.1
  let output := t4.2
  let t5 ← r_unwrap (ur20_1com_232_485_422.MessageProcessor.read oc p buf)
  let p := t5.1
  let buf := t5.2.1
  let _ ← r_assert (decide (t5.2.2 = 0))
  let _ ← r_assert (decide (buf = (List.replicate 11 0)))
  let _ ← r_assert (decide (p.initState = Com.InitState.reset))
  let input := { input with data := r_to_vec [97, 32, 109, 115, 103] }
  let input := { input with dataAvailable := true }
  let input := { input with rxCnt := 1 }
  let t6 ← MessageProcessor.next oc p input output
  let p := t6.1
  let output := t6.2
  let _ ← r_assert (decide (p.initState = Com.InitState.done))
  let t7 ← MessageProcessor.next oc p input output
  let p := t7.1
  let output := t7.2
  let t8 ← r_unwrap (ur20_1com_232_485_422.MessageProcessor.read oc p buf)
  let p := t8.1
  let buf := t8.2.1
  let _ ← r_assert (decide (t8.2.2 = 5))
  let t9 ← r_unwrap (ur20_1com_232_485_422.MessageProcessor.read oc p buf)
  let p := t9.1
  let buf := t9.2.1
  let _ ← r_assert (decide (t9.2.2 = 0))
  let t10 ← r_slice buf 0 5
  let _ ← r_assert (decide (t10 = [97, 32, 109, 115, 103]))
  let input := { input with data := r_to_vec [70, 111, 111] }
  let input := { input with rxCnt := 2 }
  let t11 ← MessageProcessor.next oc p input output
  let p := t11.1
  let output := t11.2
  let input := { input with data := r_to_vec [32, 98, 97, 114] }
  let input := { input with rxCnt := 3 }
  let t12 ← MessageProcessor.next oc p input output
  let p := t12.1
  let output := t12.2
  let input := { input with data := r_to_vec [32, 98, 97, 122] }
  let input := { input with rxCnt := 0 }
  let t13 ← MessageProcessor.next oc p input output
  let p := t13.1
  let t14 ← r_unwrap (ur20_1com_232_485_422.MessageProcessor.read oc p buf)
  let p := t14.1
  let buf := t14.2.1
  let _ ← r_assert (decide (t14.2.2 = 11))
  let _ ← r_assert (decide (buf = [70, 111, 111, 32, 98, 97, 114, 32, 98, 97, 122]))
  let t15 ← r_unwrap (ur20_1com_232_485_422.MessageProcessor.read oc p buf)
  let p := t15.1
  let buf := t15.2.1
  let _ ← r_assert (decide (t15.2.2 = 0))
  pure ()

example : rs_test_eight_byte_message_processor_receive_process true = .ok () ∧ rs_test_eight_byte_message_processor_receive_process false = .ok () := by
  decide +kernel

/-- `test_input_rx_cnt_on_receiving_messages`, `src/ur20_1com_232_485_422.rs:1008-1030`. -/
def rs_test_input_rx_cnt_on_receiving_messages (oc : Bool) : Res Unit := do
  let t1 ← MessageProcessor.new oc ProcessDataLength.EightBytes
  let p := t1
  let p := { p with initState := Com.InitState.done }
  let t2 ← ProcessInput.default oc
  let input := t2
  let t3 ← ProcessOutput.default oc
  let output := t3
  let input := { input with ready := true }
  let input := { input with data := r_to_vec [102, 111, 111] }
  let input := { input with dataAvailable := true }
  let input := { input with rxCnt := 0 }
  let t4 ← MessageProcessor.next oc p input output
  let p := t4.1
  let _ ← r_assert (decide (p.lastRxCnt = 0))
  let _ ← r_assert (decide (p.inData.length = 0))
  let input := { input with rxCnt := 1 }
  let t5 ← MessageProcessor.next oc p input output
  let p := t5.1
  let _ ← r_assert (decide (p.lastRxCnt = 1))
  let _ ← r_assert (decide (p.inData.length = 3))
  let t6 ← MessageProcessor.next oc p input output
  let p := t6.1
  let _ ← r_assert (decide (p.lastRxCnt = 1))
  let _ ← r_assert (decide (p.inData.length = 3))
  pure ()

example : rs_test_input_rx_cnt_on_receiving_messages true = .ok () ∧ rs_test_input_rx_cnt_on_receiving_messages false = .ok () := by
  decide +kernel

/-- `test_message_processor_send_process_with_outdated_tx_cnt`, `src/ur20_1com_232_485_422.rs:1033-1067`. -/
def rs_test_message_processor_send_process_with_outdated_tx_cnt (oc : Bool) : Res Unit := do
  let test : Nat → Nat → Nat → Bool → Res Unit :=
      (fun ack cnt cnt_next data =>
        (do
          let t1 ← MessageProcessor.new oc ProcessDataLength.EightBytes
          let p := t1
          let p := { p with initState := Com.InitState.done }
          let t2 ← ProcessInput.default oc
          let input := t2
          let t3 ← ProcessOutput.default oc
          let output := t3
          let input := { input with ready := true }
          let p := { p with outData := [r_to_vec [115, 111, 109, 101, 32, 100, 97, 116, 97]] }
          let input := { input with txCntAck := ack }
          let output := { output with txCnt := cnt }
          let t4 ← MessageProcessor.next oc p input output
          let p := t4.1
          let output := t4.2
          let _ ← r_assert (decide (output.txCnt = cnt_next))
          let _ ← r_assert (decide ((!output.data.isEmpty) = data))
          pure ()))
  let t5 ← test 0 0 1 true
  let t6 ← test 0 1 1 false
  let t7 ← test 0 2 1 true
  let t8 ← test 0 3 1 true
  let t9 ← test 1 0 2 true
  let t10 ← test 1 1 2 true
  let t11 ← test 1 2 2 false
  let t12 ← test 1 3 2 true
  let t13 ← test 2 0 3 true
  let t14 ← test 2 1 3 true
  let t15 ← test 2 2 3 true
  let t16 ← test 2 3 3 false
  let t17 ← test 3 0 0 false
  let t18 ← test 3 1 0 true
  let t19 ← test 3 2 0 true
  let t20 ← test 3 3 0 true
  pure ()

example : rs_test_message_processor_send_process_with_outdated_tx_cnt true = .ok () ∧ rs_test_message_processor_send_process_with_outdated_tx_cnt false = .ok () := by
  decide +kernel

/-- `test_inc_cnt`, `src/ur20_1com_232_485_422.rs:1070-1076`. -/
def rs_test_inc_cnt (oc : Bool) : Res Unit := do
  let t1 ← MessageProcessor.inc_cnt oc 0
  let _ ← r_assert (decide (t1 = 1))
  let t2 ← MessageProcessor.inc_cnt oc 1
  let _ ← r_assert (decide (t2 = 2))
  let t3 ← MessageProcessor.inc_cnt oc 2
  let _ ← r_assert (decide (t3 = 3))
  let t4 ← MessageProcessor.inc_cnt oc 3
  let _ ← r_assert (decide (t4 = 0))
  let t5 ← MessageProcessor.inc_cnt oc 4
  let _ ← r_assert (decide (t5 = 0))
  pure ()

example : rs_test_inc_cnt true = .ok () ∧ rs_test_inc_cnt false = .ok () := by
  decide +kernel

/-- `test_module_parameters_from_raw_data`, `src/ur20_1com_232_485_422.rs:1079-1106`. -/
def rs_test_module_parameters_from_raw_data (oc : Bool) : Res Unit := do
  let data : List Word := [1, 3, 9, 1, 2, 2, 1, 1, 33, 35]
  let t1 ← r_unwrap (parameters_from_raw_data oc data)
  let (mod_params, p) := t1
  let _ ← r_assert (decide (mod_params.processDataLen = ProcessDataLength.SixteenBytes))
  let _ ← r_assert (decide (p.operatingMode = OperatingMode.RS422))
  let _ ← r_assert (decide (p.baudRate = BaudRate.Baud_38400))
  let _ ← r_assert (decide (p.stopBit = StopBit.TwoBits))
  let _ ← r_assert (decide (p.parity = Parity.Odd))
  let _ ← r_assert (decide (p.flowControl = FlowControl.XON_XOFF))
  let _ ← r_assert (decide (p.dataBits = DataBits.EightBits))
  let _ ← r_assert p.terminatingResistor
  let _ ← r_assert (decide (p.XONChar = '!'))
  let _ ← r_assert (decide (p.XOFFChar = '#'))
  pure ()

example : rs_test_module_parameters_from_raw_data true = .ok () ∧ rs_test_module_parameters_from_raw_data false = .ok () := by
  decide +kernel

/-- `test_parameters_from_invalid_raw_data`, `src/ur20_1com_232_485_422.rs:1109-1150`. -/
def rs_test_parameters_from_invalid_raw_data (oc : Bool) : Res Unit := do
  let data : List Word := List.replicate 10 0
  let t1 ← r_set data 0 2
  let data := t1
  let t2 ← r_is_err (parameters_from_raw_data oc data)
  let _ ← r_assert t2
  let t3 ← r_set data 0 0
  let data := t3
  let t4 ← r_set data 1 4
  let data := t4
  let t5 ← r_is_err (parameters_from_raw_data oc data)
  let _ ← r_assert t5
  let t6 ← r_set data 1 0
  let data := t6
  let t7 ← r_set data 2 12
  let data := t7
  let t8 ← r_is_err (parameters_from_raw_data oc data)
  let _ ← r_assert t8
  let t9 ← r_set data 2 0
  let data := t9
  let t10 ← r_set data 3 2
  let data := t10
  let t11 ← r_is_err (parameters_from_raw_data oc data)
  let _ ← r_assert t11
  let t12 ← r_set data 3 0
  let data := t12
  let t13 ← r_set data 4 3
  let data := t13
  let t14 ← r_is_err (parameters_from_raw_data oc data)
  let _ ← r_assert t14
  let t15 ← r_set data 4 0
  let data := t15
  let t16 ← r_set data 5 3
  let data := t16
  let t17 ← r_is_err (parameters_from_raw_data oc data)
  let _ ← r_assert t17
  let t18 ← r_set data 5 0
  let data := t18
  let t19 ← r_set data 6 2
  let data := t19
  let t20 ← r_is_err (parameters_from_raw_data oc data)
  let _ ← r_assert t20
  let t21 ← r_set data 6 0
  let data := t21
  let t22 ← r_set data 7 2
  let data := t22
  let t23 ← r_is_err (parameters_from_raw_data oc data)
  let _ ← r_assert t23
  let t24 ← r_set data 7 0
  let data := t24
  let t25 ← r_set data 8 256
  let data := t25
  let t26 ← r_is_err (parameters_from_raw_data oc data)
  let _ ← r_assert t26
  let t27 ← r_set data 8 0
  let data := t27
  let t28 ← r_set data 9 256
  let data := t28
  let t29 ← r_is_err (parameters_from_raw_data oc data)
  let _ ← r_assert t29
  pure ()

example : rs_test_parameters_from_invalid_raw_data true = .ok () ∧ rs_test_parameters_from_invalid_raw_data false = .ok () := by
  decide +kernel

/-- `test_parameters_from_invalid_data_buffer_size`, `src/ur20_1com_232_485_422.rs:1153-1160`. -/
def rs_test_parameters_from_invalid_data_buffer_size (oc : Bool) : Res Unit := do
  let data : List Word := List.replicate 0 0
  let t1 ← r_is_err (parameters_from_raw_data oc data)
  let _ ← r_assert t1
  let data : List Word := List.replicate 9 0
  let t2 ← r_is_err (parameters_from_raw_data oc data)
  let _ ← r_assert t2
  let data : List Word := List.replicate 10 0
  let t3 ← r_is_ok (parameters_from_raw_data oc data)
  let _ ← r_assert t3
  pure ()

example : rs_test_parameters_from_invalid_data_buffer_size true = .ok () ∧ rs_test_parameters_from_invalid_data_buffer_size false = .ok () := by
  decide +kernel

/-- `create_module_from_modbus_parameter_data`, `src/ur20_1com_232_485_422.rs:1163-1170`. -/
def rs_create_module_from_modbus_parameter_data (oc : Bool) : Res Unit := do
  let data : List Word := List.replicate 10 0
  let t1 ← r_unwrap (Mod.from_modbus_parameter_data oc data)
  let module := t1
  let t2 ← r_index module.chParams 0
  let _ ← r_assert (decide (t2.operatingMode = OperatingMode.Disabled))
  let t3 ← r_index module.chParams 0
  let _ ← r_assert (decide (t3.dataBits = DataBits.SevenBits))
  let data : List Word := [1, 0, 5, 0, 0, 0, 1, 0, 17, 19]
  let t4 ← r_is_ok (Mod.from_modbus_parameter_data oc data)
  let _ ← r_assert t4
  pure ()

example : rs_create_module_from_modbus_parameter_data true = .ok () ∧ rs_create_module_from_modbus_parameter_data false = .ok () := by
  decide +kernel

end Ur20.Src.ur20_1com_232_485_422
