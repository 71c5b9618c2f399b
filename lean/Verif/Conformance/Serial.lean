import Verif.Conformance.Basic
import Verif.Model.StdIo

/-!
# Tests of the serial module `src/ur20_1com_232_485_422.rs`
-/

namespace Ur20.Conformance

open ChannelValue Com

/-- The derived `ProcessInput::default()`. -/
def rsIn : RsIn := ⟨false, false, 0, 0, false, []⟩

/-- The derived `ProcessOutput::default()`. -/
def rsOut : RsOut := ⟨false, false, false, 0, 0, false, []⟩

/-- `Mod::default()`. -/
def com : Module := .com Com.Mod.default

/-- `Mod::default()` with eight bytes of process data. -/
def com8 : Module := .com { Com.Mod.default with processDataLen := .EightBytes }

/-- `try_process_input_data_data_from_empty_byte_message`. -/
example : rsInFromBytes [0, 0] = .ok
    { dataAvailable := false, bufferNearlyFull := false, rxCnt := 0, txCntAck := 0,
      ready := false, data := [] } := by decide +kernel

/-- `try_process_input_data_data_from_invalid_byte_message`. -/
example : rsInFromBytes [0] = .err .bufferLength ∧ rsInFromBytes [0, 5, 0] = .err .bufferLength ∧
    (rsInFromBytes [0, 5, 0, 0, 0, 0, 0]).isOk := by decide +kernel

/-- `try_process_input_data_data_from_valid_byte_message`. -/
example : rsInFromBytes [0b11110001, 3, 0x0, 0xf, 0x5] = .ok
    { dataAvailable := true, bufferNearlyFull := false, rxCnt := 2, txCntAck := 3,
      ready := true, data := [0, 15, 5] } := by decide +kernel

/-- `try_invalid_process_output_data_into_byte_message`. -/
example : rsOutToBytes { rsOut with txCnt := 4 } .EightBytes = .err .sequenceNumber ∧
    rsOutToBytes { rsOut with rxCntAck := 4 } .EightBytes = .err .sequenceNumber ∧
    rsOutToBytes { rsOut with data := [0, 0, 0, 0, 0, 0, 0] } .EightBytes = .err .dataLength := by
  decide +kernel

/-- `try_valid_process_output_data_into_byte_message`. -/
example : rsOutToBytes rsOut .EightBytes = .ok [0, 0, 0, 0, 0, 0, 0, 0] ∧
    (rsOutToBytes { rsOut with rxBufFlush := true } .EightBytes).at? 0 = some 0b1 ∧
    (rsOutToBytes { rsOut with txBufFlush := true } .EightBytes).at? 0 = some 0b10 ∧
    (rsOutToBytes { rsOut with disableTxHwBuffer := true } .EightBytes).at? 0 = some 0b100 ∧
    (rsOutToBytes { rsOut with txCnt := 3 } .EightBytes).at? 0 = some 0b11000 ∧
    (rsOutToBytes { rsOut with rxCntAck := 3 } .EightBytes).at? 0 = some 0b1100000 ∧
    (rsOutToBytes { rsOut with reset := true } .EightBytes).at? 0 = some 0b10000000 ∧
    rsOutToBytes { rsOut with data := [4, 3, 2, 1] } .EightBytes =
      .ok [0, 4, 4, 3, 2, 1, 0, 0] := by decide +kernel

/-- `try_process_output_from_valid_byte_message`. -/
example : rsOutFromBytes [0b01011010, 3, 0x0, 0xe, 0x7] = .ok
    { rxBufFlush := false, txBufFlush := true, disableTxHwBuffer := false, txCnt := 3,
      rxCntAck := 2, reset := false, data := [0, 14, 7] } := by decide +kernel

/-- `test_process_input_data_with_empty_buffer` and
`test_process_output_data_with_empty_buffer`. -/
example : (com.processInputData []).isErr ∧ (com.processOutputData []).isErr := by decide +kernel

/-- `try_process_output_data_from_valid_data`. -/
example : com.processOutputData [0b0000001101011010, 0x0E00, 7] = .ok [comRsOut
    { rxBufFlush := false, txBufFlush := true, disableTxHwBuffer := false, txCnt := 3,
      rxCntAck := 2, reset := false, data := [0, 14, 7] }] := by decide +kernel

/-- `test_process_input_data_with_valid_input_data`. -/
example : com.processInputData [0x0600, 0, 0xABCD, 0] =
    .ok [comRsIn { rsIn with data := [0, 0, 0xCD, 0xAB, 0, 0] }] := by decide +kernel

/-- `test_process_output_values_with_invalid_input_len`. -/
example : (com.processOutputValues []).isErr ∧
    (com.processOutputValues [comRsIn rsIn, comRsIn rsIn]).isErr := by decide +kernel

/-- `test_process_output_values_with_invalid_channel_data`. -/
example : (com.processOutputValues [decimal32 (F32.lit 0)]).isErr := by decide +kernel

/-- `test_process_output_values_with_invalid_byte_len`. -/
example :
    let out := fun n => [comRsOut { rsOut with data := List.replicate n 0#8 }]
    (com.processOutputValues [comRsOut { rsOut with data := [0, 5] }]).isOk ∧
    (com.processOutputValues (out 14)).isOk ∧ (com.processOutputValues (out 15)).isErr ∧
    (com8.processOutputValues (out 14)).isErr ∧ (com8.processOutputValues (out 7)).isErr ∧
    (com8.processOutputValues (out 6)).isOk := by decide +kernel

/-- `test_process_output_values`. -/
example : com.processOutputValues [comRsOut { rsOut with data := [0x0A, 0x0B, 0, 0x0C] }] =
    .ok [0x0400, 0x0B0A, 0x0C00, 0, 0, 0, 0, 0] := by decide +kernel

/-- A processor that is already initialised. -/
def done (len : ProcessDataLength) : MessageProcessor :=
  { MessageProcessor.new len with initState := .done }

/-- `test_eight_byte_message_processor_send_process`. -/
example :
    let input := { rsIn with ready := true }
    let s0 := (done .EightBytes).next input rsOut
    let p1 := (s0.1.write (ascii "This msg is >6 bytes")).1
    let s2 := p1.next input rsOut
    let s3 := s2.1.next input s2.2
    let s4 := s3.1.next { input with txCntAck := 1 } s3.2
    let s5 := s4.1.next { input with txCntAck := 2 } s4.2
    let s6 := s5.1.next { input with txCntAck := 3 } s5.2
    let s7 := s6.1.next { input with txCntAck := 3 } s6.2
    s0.2 = rsOut ∧
    s2.2.data = ascii "This m" ∧ s2.2.txCnt = 1 ∧
    s3.2 = s2.2 ∧
    s4.2.txCnt = 2 ∧ s4.2.data = ascii "sg is " ∧
    s5.2.txCnt = 3 ∧ s5.2.data = ascii ">6 byt" ∧
    s6.2.txCnt = 0 ∧ s6.2.data = ascii "es" ∧
    s7.2 = s6.2 := by decide +kernel

/-- `test_sixteen_byte_message_processor_send_process`. -/
example :
    let input := { rsIn with ready := true }
    let p := ((done .SixteenBytes).write (ascii "This msg is >14 bytes")).1
    let s1 := p.next input rsOut
    let s2 := s1.1.next { input with txCntAck := 1 } s1.2
    s1.2.data = ascii "This msg is >1" ∧ s1.2.txCnt = 1 ∧ s2.2.data = ascii "4 bytes" := by
  decide +kernel

/-- `test_initial_message_processor_send_process`. -/
example :
    let input := { rsIn with ready := true }
    let p := ((MessageProcessor.new .SixteenBytes).write (ascii "This msg is >14 bytes")).1
    let s1 := p.next input rsOut
    let s2 := s1.1.next input s1.2
    let s3 := s2.1.next input s2.2
    p.initState = .clearBuffers ∧
    s1.2.rxBufFlush = true ∧ s1.2.txBufFlush = true ∧ s1.2.reset = false ∧
    s1.1.initState = .reset ∧
    s2.2.rxBufFlush = false ∧ s2.2.txBufFlush = false ∧ s2.2.reset = true ∧
    s2.1.initState = .done ∧ s2.1.lastRxCnt = 4 ∧ s2.2.data = [] ∧ s2.2.txCnt = 0 ∧
    s3.2.data = ascii "This msg is >1" ∧ s3.2.txCnt = 1 := by decide +kernel

/-- `read`, for the tests: the new state (the old one after a panic) and the bytes read. -/
def readFor (p : MessageProcessor) (n : Nat) : MessageProcessor × Option (List Byte) :=
  match p.read n with
  | .ok r => (r.1, some r.2)
  | _ => (p, Option.none)

/-- `test_eight_byte_message_processor_receive_process`. -/
example :
    let input := { rsIn with ready := true }
    let s1 := (MessageProcessor.new .EightBytes).next input rsOut
    let r1 := readFor s1.1 11
    let input := { input with data := ascii "a msg", dataAvailable := true, rxCnt := 1 }
    let s2 := r1.1.next input s1.2
    let s3 := s2.1.next input s2.2
    let r2 := readFor s3.1 11
    let r3 := readFor r2.1 11
    let input := { input with data := ascii "Foo", rxCnt := 2 }
    let s4 := r3.1.next input s3.2
    let input := { input with data := ascii " bar", rxCnt := 3 }
    let s5 := s4.1.next input s4.2
    let input := { input with data := ascii " baz", rxCnt := 0 }
    let s6 := s5.1.next input s5.2
    let r4 := readFor s6.1 11
    let r5 := readFor r4.1 11
    r1.2 = some [] ∧ r1.1.initState = .reset ∧ s2.1.initState = .done ∧
    r2.2 = some (ascii "a msg") ∧ r3.2 = some [] ∧
    r4.2 = some (ascii "Foo bar baz") ∧ r5.2 = some [] := by decide +kernel

/-- `test_input_rx_cnt_on_receiving_messages`. -/
example :
    let input := { rsIn with ready := true, data := ascii "foo", dataAvailable := true }
    let p1 := ((done .EightBytes).next { input with rxCnt := 0 } rsOut).1
    let p2 := (p1.next { input with rxCnt := 1 } rsOut).1
    let p3 := (p2.next { input with rxCnt := 1 } rsOut).1
    p1.lastRxCnt = 0 ∧ p1.inData.length = 0 ∧ p2.lastRxCnt = 1 ∧ p2.inData.length = 3 ∧
    p3.lastRxCnt = 1 ∧ p3.inData.length = 3 := by decide +kernel

/-- The closure of `test_message_processor_send_process_with_outdated_tx_cnt`. -/
def outdated (ack cnt cntNext : Nat) (data : Bool) : Bool :=
  let p := { done .EightBytes with outData := [ascii "some data"] }
  let out := (p.next { rsIn with ready := true, txCntAck := ack } { rsOut with txCnt := cnt }).2
  out.txCnt == cntNext && (!out.data.isEmpty) == data

/-- `test_message_processor_send_process_with_outdated_tx_cnt`. -/
example : outdated 0 0 1 true ∧ outdated 0 1 1 false ∧ outdated 0 2 1 true ∧ outdated 0 3 1 true ∧
    outdated 1 0 2 true ∧ outdated 1 1 2 true ∧ outdated 1 2 2 false ∧ outdated 1 3 2 true ∧
    outdated 2 0 3 true ∧ outdated 2 1 3 true ∧ outdated 2 2 3 true ∧ outdated 2 3 3 false ∧
    outdated 3 0 0 false ∧ outdated 3 1 0 true ∧ outdated 3 2 0 true ∧ outdated 3 3 0 true := by
  decide +kernel

/-- `test_inc_cnt`. -/
example : incCnt 0 = 1 ∧ incCnt 1 = 2 ∧ incCnt 2 = 3 ∧ incCnt 3 = 0 ∧ incCnt 4 = 0 := by
  decide +kernel

/-- `test_module_parameters_from_raw_data`. -/
example : Com.parametersFromRawData [1, 3, 9, 1, 2, 2, 1, 1, 33, 35] = .ok (.SixteenBytes,
    { operatingMode := .RS422, baudRate := .Baud_38400, stopBit := .TwoBits, parity := .Odd,
      flowControl := .XON_XOFF, dataBits := .EightBits, terminatingResistor := true,
      xonChar := BitVec.ofNat 8 '!'.toNat, xoffChar := BitVec.ofNat 8 '#'.toNat }) := by
  decide +kernel

/-- `test_parameters_from_invalid_raw_data`. -/
example : (Com.parametersFromRawData ((words 10).set 0 2)).isErr ∧
    (Com.parametersFromRawData ((words 10).set 1 4)).isErr ∧
    (Com.parametersFromRawData ((words 10).set 2 12)).isErr ∧
    (Com.parametersFromRawData ((words 10).set 3 2)).isErr ∧
    (Com.parametersFromRawData ((words 10).set 4 3)).isErr ∧
    (Com.parametersFromRawData ((words 10).set 5 3)).isErr ∧
    (Com.parametersFromRawData ((words 10).set 6 2)).isErr ∧
    (Com.parametersFromRawData ((words 10).set 7 2)).isErr ∧
    (Com.parametersFromRawData ((words 10).set 8 256)).isErr ∧
    (Com.parametersFromRawData ((words 10).set 9 256)).isErr := by decide +kernel

/-- `test_parameters_from_invalid_data_buffer_size`. -/
example : (Com.parametersFromRawData (words 0)).isErr ∧
    (Com.parametersFromRawData (words 9)).isErr ∧
    (Com.parametersFromRawData (words 10)).isOk := by decide +kernel

/-- `create_module_from_modbus_parameter_data`. -/
example :
    let p := (Com.fromModbusParameterData (words 10)).map (·.chParams)
    (p.at? 0).map (·.operatingMode) = some .Disabled ∧
    (p.at? 0).map (·.dataBits) = some .SevenBits ∧
    (Com.fromModbusParameterData [1, 0, 5, 0, 0, 0, 1, 0, 17, 19]).isOk := by decide +kernel

end Ur20.Conformance
