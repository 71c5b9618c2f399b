import Verif.Model.Digital

/-!
# Serial communication module UR20-1COM-232-485-422 (`src/ur20_1com_232_485_422.rs`)
-/

namespace Ur20

/-- `ProcessDataLength::user_data_len`, `src/ur20_1com_232_485_422.rs:194-200`. -/
def ProcessDataLength.userDataLen : ProcessDataLength → Nat
  | .EightBytes => 6
  | .SixteenBytes => 14

/-- The byte counts of `src/ur20_1com_232_485_422.rs:237-240`, `:318-321`, `:324-327`. -/
def ProcessDataLength.byteCount : ProcessDataLength → Nat
  | .EightBytes => 8
  | .SixteenBytes => 16

namespace Com

/-- `src/ur20_1com_232_485_422.rs:80-90`. The XON and XOFF characters are their codes. -/
structure ChannelParameters where
  operatingMode : OperatingMode
  dataBits : DataBits
  baudRate : BaudRate
  stopBit : StopBit
  parity : Parity
  flowControl : FlowControl
  xonChar : Byte
  xoffChar : Byte
  terminatingResistor : Bool
  deriving DecidableEq, Repr

/-- `src/ur20_1com_232_485_422.rs:15-18` and `:74-76`. -/
structure Mod where
  processDataLen : ProcessDataLength
  chParams : List ChannelParameters
  deriving DecidableEq, Repr

/-- `match data[i] { 0..=255 => data[i] as u8, _ => Err(ChannelParameter) }`,
`src/ur20_1com_232_485_422.rs:553-565`. -/
def charParam (w : Word) : Res Byte :=
  if w.toNat ≤ 255 then .ok (w.setWidth 8) else .err .channelParameter

/-- `parameters_from_raw_data`, `src/ur20_1com_232_485_422.rs:488-568`. -/
def parametersFromRawData (data : List Word) : Res (ProcessDataLength × ChannelParameters) :=
  if data.length < 10 then .err .bufferLength
  else do
    let len ← codeParam ProcessDataLength.fromU16 (← idx data 0)
    let mode ← codeParam OperatingMode.fromU16 (← idx data 1)
    let baud ← codeParam BaudRate.fromU16 (← idx data 2)
    let stop ← codeParam StopBit.fromU16 (← idx data 3)
    let parity ← codeParam Parity.fromU16 (← idx data 4)
    let flow ← codeParam FlowControl.fromU16 (← idx data 5)
    let bits ← codeParam DataBits.fromU16 (← idx data 6)
    let res ← boolParam (← idx data 7)
    let xon ← charParam (← idx data 8)
    let xoff ← charParam (← idx data 9)
    pure (len, {
      operatingMode := mode, dataBits := bits, baudRate := baud, stopBit := stop,
      parity := parity, flowControl := flow, xonChar := xon, xoffChar := xoff,
      terminatingResistor := res })

/-- `from_modbus_parameter_data`, `src/ur20_1com_232_485_422.rs:156-164`. -/
def fromModbusParameterData (data : List Word) : Res Mod := do
  let p ← parametersFromRawData data
  pure ⟨p.1, [p.2]⟩

/-- `CNT_MASK`, `src/ur20_1com_232_485_422.rs:366`. -/
def cntMask : Byte := 0b00011000#8

/-- `CNT_ACK_MASK`, `src/ur20_1com_232_485_422.rs:367`. -/
def cntAckMask : Byte := 0b01100000#8

/-- `cnt_from_status_byte`, `src/ur20_1com_232_485_422.rs:369-371`. -/
def cntFromStatusByte (byte : Byte) : Nat := ((cntMask &&& byte) >>> 3).toNat

/-- `cnt_to_status_byte`, `src/ur20_1com_232_485_422.rs:373-376`. -/
def cntToStatusByte (cnt : Nat) (byte : Byte) : Byte :=
  byte ||| (cntMask &&& (BitVec.ofNat 8 cnt <<< 3))

/-- `cnt_ack_from_status_byte`, `src/ur20_1com_232_485_422.rs:378-380`. -/
def cntAckFromStatusByte (byte : Byte) : Nat := ((cntAckMask &&& byte) >>> 5).toNat

/-- `cnt_ack_to_status_byte`, `src/ur20_1com_232_485_422.rs:382-385`. -/
def cntAckToStatusByte (cnt : Nat) (byte : Byte) : Byte :=
  byte ||| (cntAckMask &&& (BitVec.ofNat 8 cnt <<< 5))

/-- `ProcessInput::try_from_byte_message`, `src/ur20_1com_232_485_422.rs:167-189`. The slice
`bytes[2..data_len + 2]` is in bounds after the length check. -/
def rsInFromBytes (bytes : List Byte) : Res RsIn :=
  if bytes.length < 2 then .err .bufferLength
  else do
    let status ← idx bytes 0
    let b1 ← idx bytes 1
    let dataLen := b1.toNat
    if bytes.length < dataLen + 2 then .err .bufferLength
    else pure {
      dataAvailable := testBit status 0
      bufferNearlyFull := testBit status 1
      rxCnt := cntFromStatusByte status
      txCntAck := cntAckFromStatusByte status
      ready := testBit status 7
      data := (bytes.drop 2).take dataLen }

/-- `ProcessOutput::try_from_byte_message`, `src/ur20_1com_232_485_422.rs:251-274`. -/
def rsOutFromBytes (bytes : List Byte) : Res RsOut :=
  if bytes.length < 2 then .err .bufferLength
  else do
    let status ← idx bytes 0
    let b1 ← idx bytes 1
    let dataLen := b1.toNat
    if bytes.length < dataLen + 2 then .err .bufferLength
    else pure {
      rxBufFlush := testBit status 0
      txBufFlush := testBit status 1
      disableTxHwBuffer := testBit status 2
      txCnt := cntFromStatusByte status
      rxCntAck := cntAckFromStatusByte status
      reset := testBit status 7
      data := (bytes.drop 2).take dataLen }

/-- The loop `for (i, d) in data.iter().enumerate() { msg[2 + i] = *d }`,
`src/ur20_1com_232_485_422.rs:245-247`; panics when out of bounds. -/
def writeData (i : Nat) (msg : List Byte) : List Byte → Res (List Byte)
  | [] => .ok msg
  | d :: ds => if 2 + i < msg.length then writeData (i + 1) (msg.set (2 + i) d) ds else .panic

/-- The status byte of `try_into_byte_message`, `src/ur20_1com_232_485_422.rs:216-235`. -/
def statusByte (o : RsOut) : Byte :=
  let status := 0#8
  let status := if o.rxBufFlush then setBit status 0 else status
  let status := if o.txBufFlush then setBit status 1 else status
  let status := if o.disableTxHwBuffer then setBit status 2 else status
  let status := cntToStatusByte o.txCnt status
  let status := cntAckToStatusByte o.rxCntAck status
  if o.reset then setBit status 7 else status

/-- `ProcessOutput::try_into_byte_message`, `src/ur20_1com_232_485_422.rs:204-249`. -/
def rsOutToBytes (o : RsOut) (len : ProcessDataLength) : Res (List Byte) :=
  if o.txCnt > 3 || o.rxCntAck > 3 then .err .sequenceNumber
  else if o.data.length > len.userDataLen then .err .dataLength
  else
    let msg := List.replicate len.byteCount 0#8
    let msg := msg.set 0 (statusByte o)
    let msg := msg.set 1 (BitVec.ofNat 8 o.data.length)
    writeData 0 msg o.data

/-- `process_input_data`, `src/ur20_1com_232_485_422.rs:329-337`. The fold that collects the
bytes is `u16_to_u8`. -/
def Mod.processInputData (_ : Mod) (data : List Word) : Res (List ChannelValue) := do
  let v ← rsInFromBytes (u16ToU8 data)
  pure [.comRsIn v]

/-- `process_output_data`, `src/ur20_1com_232_485_422.rs:338-346`. -/
def Mod.processOutputData (_ : Mod) (data : List Word) : Res (List ChannelValue) := do
  let v ← rsOutFromBytes (u16ToU8 data)
  pure [.comRsOut v]

/-- `process_output_values`, `src/ur20_1com_232_485_422.rs:347-363`. -/
def Mod.processOutputValues (m : Mod) (values : List ChannelValue) : Res (List Word) :=
  match values with
  | [.comRsOut o] =>
    if o.data.length > m.processDataLen.userDataLen then .err .bufferLength
    else do
      let msg ← rsOutToBytes o m.processDataLen
      pure (u8ToU16 msg)
  | _ => .err .channelValue

/-- `InitState`, `src/ur20_1com_232_485_422.rs:397-401`. -/
inductive InitState where
  | clearBuffers
  | reset
  | done
  deriving DecidableEq, Repr

/-- `MessageProcessor`, `src/ur20_1com_232_485_422.rs:388-394`. -/
structure MessageProcessor where
  initState : InitState
  lastRxCnt : Nat
  inData : List Byte
  outData : List (List Byte)
  processDataLen : ProcessDataLength
  deriving DecidableEq, Repr

/-- `MessageProcessor::new`, `src/ur20_1com_232_485_422.rs:406-414`. -/
def MessageProcessor.new (len : ProcessDataLength) : MessageProcessor :=
  { initState := .clearBuffers, lastRxCnt := 0, inData := [], outData := [],
    processDataLen := len }

/-- `inc_cnt`, `src/ur20_1com_232_485_422.rs:452-458`. Simplification: `usize` is unbounded. With
`usize::MAX`, possible only by calling `MessageProcessor::next` directly, the code panics in
debug builds; in release builds it wraps to 0, as here. `Model/ImperativeCom.lean` has this case. -/
def incCnt (txCntAck : Nat) : Nat :=
  let c := txCntAck + 1
  if c > 3 then 0 else c

/-- The transmit half of `next` in state `Done`, `src/ur20_1com_232_485_422.rs:421-424`. -/
def MessageProcessor.nextTx (p : MessageProcessor) (input : RsIn) (output : RsOut) :
    MessageProcessor × RsOut :=
  match p.outData with
  | [] => (p, output)
  | c :: cs =>
    if incCnt input.txCntAck ≠ output.txCnt then
      ({ p with outData := cs }, { output with txCnt := incCnt input.txCntAck, data := c })
    else (p, output)

/-- The receive half of `next` in state `Done`, `src/ur20_1com_232_485_422.rs:425-428`. -/
def MessageProcessor.nextRx (p : MessageProcessor) (input : RsIn) : MessageProcessor :=
  if input.dataAvailable && p.lastRxCnt != input.rxCnt then
    { p with inData := p.inData ++ input.data, lastRxCnt := input.rxCnt }
  else p

/-- `MessageProcessor::next`, `src/ur20_1com_232_485_422.rs:418-450`. -/
def MessageProcessor.next (p : MessageProcessor) (input : RsIn) (output : RsOut) :
    MessageProcessor × RsOut :=
  let (p, out) := match p.initState with
    | .done =>
      let (p, out) := p.nextTx input output
      (p.nextRx input, out)
    | .clearBuffers =>
      ({ p with initState := .reset },
        { output with data := [], reset := false, rxBufFlush := true, txBufFlush := true })
    | .reset =>
      ({ p with lastRxCnt := 4, initState := .done },
        { output with data := [], reset := true, rxBufFlush := false, txBufFlush := false })
  (p, { out with rxCntAck := input.rxCnt })

/-- The loop `for x in buf.iter_mut().take(len) { *x = self.in_data.remove(0) }`,
`src/ur20_1com_232_485_422.rs:468-470`: the bytes moved into the buffer and the rest. `remove(0)`
on an empty vector would panic; the loop runs at most `in_data.len()` times. -/
def readLoop : Nat → List Byte → Res (List Byte × List Byte)
  | 0, d => .ok ([], d)
  | _ + 1, [] => .panic
  | n + 1, b :: d => (readLoop n d).bind fun r => .ok (b :: r.1, r.2)

/-- `Read::read`, `src/ur20_1com_232_485_422.rs:461-474`, with a buffer of `n` bytes. Returns
the new state and the bytes written to the front of the buffer. -/
def MessageProcessor.read (p : MessageProcessor) (n : Nat) : Res (MessageProcessor × List Byte) :=
  if p.inData.isEmpty then .ok (p, [])
  else (readLoop (min n p.inData.length) p.inData).bind fun r =>
    .ok ({ p with inData := r.2 }, r.1)

/-- `slice::chunks(n)` with fuel: consecutive chunks of `n` elements, the last one shorter. -/
def chunksAux (n : Nat) : Nat → List Byte → List (List Byte)
  | 0, _ => []
  | fuel + 1, l => if l.isEmpty then [] else l.take n :: chunksAux n fuel (l.drop n)

/-- `slice::chunks(n)` for `n > 0`. -/
def chunks (n : Nat) (l : List Byte) : List (List Byte) := chunksAux n l.length l

/-- `Write::write`, `src/ur20_1com_232_485_422.rs:477-482`: returns the new state and the number
of accepted bytes, which is always the length of the buffer. `write_all` on a buffer calls
`write` once (or not at all for an empty buffer, which has no effect either way). -/
def MessageProcessor.write (p : MessageProcessor) (buf : List Byte) : MessageProcessor × Nat :=
  ({ p with outData := p.outData ++ chunks p.processDataLen.userDataLen buf }, buf.length)

end Com

end Ur20
