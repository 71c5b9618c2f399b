import Verif.Source.FbcTrait
import Verif.Source.Util

/-!
# `src/ur20_1com_232_485_422.rs`, translated

Generated by `tools/rust2lean.py` from the source. Do not edit.
-/

set_option linter.unusedVariables false

namespace Ur20.Src.ur20_1com_232_485_422

/-- `ModuleParameters`, `src/ur20_1com_232_485_422.rs:74-76`. -/
structure ModuleParameters where
  processDataLen : ProcessDataLength

/-- `ChannelParameters`, `src/ur20_1com_232_485_422.rs:80-90`. -/
structure ChannelParameters where
  operatingMode : OperatingMode
  dataBits : DataBits
  baudRate : BaudRate
  stopBit : StopBit
  parity : Parity
  flowControl : FlowControl
  XONChar : Char
  XOFFChar : Char
  terminatingResistor : Bool

/-- `Mod`, `src/ur20_1com_232_485_422.rs:15-18`. -/
structure Mod where
  modParams : ModuleParameters
  chParams : List ChannelParameters

/-- The fields of `ProcessInput`, `src/ur20_1com_232_485_422.rs:21-40`. -/
def ProcessInput.fields (x : RsIn) : Bool × Bool × Nat × Nat × Bool × (List Byte) :=
  (x.dataAvailable, x.bufferNearlyFull, x.rxCnt, x.txCntAck, x.ready, x.data)

/-- `ProcessInput` has no other fields. -/
theorem ProcessInput.fields_all (x : RsIn) : x = { dataAvailable := x.dataAvailable, bufferNearlyFull := x.bufferNearlyFull, rxCnt := x.rxCnt, txCntAck := x.txCntAck, ready := x.ready, data := x.data } := rfl

/-- The derived `ProcessInput::default`, `src/ur20_1com_232_485_422.rs:21-40`. -/
def ProcessInput.default (oc : Bool) : Res RsIn := do
  pure { dataAvailable := false, bufferNearlyFull := false, rxCnt := 0, txCntAck := 0, ready := false, data := [] }

/-- The fields of `ProcessOutput`, `src/ur20_1com_232_485_422.rs:43-70`. -/
def ProcessOutput.fields (x : RsOut) : Bool × Bool × Bool × Nat × Nat × Bool × (List Byte) :=
  (x.rxBufFlush, x.txBufFlush, x.disableTxHwBuffer, x.txCnt, x.rxCntAck, x.reset, x.data)

/-- `ProcessOutput` has no other fields. -/
theorem ProcessOutput.fields_all (x : RsOut) : x = { rxBufFlush := x.rxBufFlush, txBufFlush := x.txBufFlush, disableTxHwBuffer := x.disableTxHwBuffer, txCnt := x.txCnt, rxCntAck := x.rxCntAck, reset := x.reset, data := x.data } := rfl

/-- The derived `ProcessOutput::default`, `src/ur20_1com_232_485_422.rs:43-70`. -/
def ProcessOutput.default (oc : Bool) : Res RsOut := do
  pure { rxBufFlush := false, txBufFlush := false, disableTxHwBuffer := false, txCnt := 0, rxCntAck := 0, reset := false, data := [] }

/-- `OperatingMode` has no other variants, `src/ur20_1com_232_485_422.rs:94-99`. -/
theorem OperatingMode.variants (x : OperatingMode) : x ∈ [
    OperatingMode.Disabled,
    OperatingMode.RS232,
    OperatingMode.RS485,
    OperatingMode.RS422] := by
  cases x <;> simp

/-- The derived `FromPrimitive`, `src/ur20_1com_232_485_422.rs:94-99`. -/
instance : FromPrimitive OperatingMode where
  from_u16 n := lookup_code n [
    (0, OperatingMode.Disabled),
    (1, OperatingMode.RS232),
    (2, OperatingMode.RS485),
    (3, OperatingMode.RS422)]

/-- The derived `ToPrimitive`, `src/ur20_1com_232_485_422.rs:94-99`. -/
instance : ToPrimitive OperatingMode where
  to_u16 x := match x with
    | OperatingMode.Disabled => some 0
    | OperatingMode.RS232 => some 1
    | OperatingMode.RS485 => some 2
    | OperatingMode.RS422 => some 3

/-- `DataBits` has no other variants, `src/ur20_1com_232_485_422.rs:102-105`. -/
theorem DataBits.variants (x : DataBits) : x ∈ [
    DataBits.SevenBits,
    DataBits.EightBits] := by
  cases x <;> simp

/-- The derived `FromPrimitive`, `src/ur20_1com_232_485_422.rs:102-105`. -/
instance : FromPrimitive DataBits where
  from_u16 n := lookup_code n [
    (0, DataBits.SevenBits),
    (1, DataBits.EightBits)]

/-- The derived `ToPrimitive`, `src/ur20_1com_232_485_422.rs:102-105`. -/
instance : ToPrimitive DataBits where
  to_u16 x := match x with
    | DataBits.SevenBits => some 0
    | DataBits.EightBits => some 1

/-- `BaudRate` has no other variants, `src/ur20_1com_232_485_422.rs:110-123`. -/
theorem BaudRate.variants (x : BaudRate) : x ∈ [
    BaudRate.Baud_300,
    BaudRate.Baud_600,
    BaudRate.Baud_1200,
    BaudRate.Baud_2400,
    BaudRate.Baud_4800,
    BaudRate.Baud_9600,
    BaudRate.Baud_14400,
    BaudRate.Baud_19200,
    BaudRate.Baud_28800,
    BaudRate.Baud_38400,
    BaudRate.Baud_57600,
    BaudRate.Baud_115200] := by
  cases x <;> simp

/-- The derived `FromPrimitive`, `src/ur20_1com_232_485_422.rs:110-123`. -/
instance : FromPrimitive BaudRate where
  from_u16 n := lookup_code n [
    (0, BaudRate.Baud_300),
    (1, BaudRate.Baud_600),
    (2, BaudRate.Baud_1200),
    (3, BaudRate.Baud_2400),
    (4, BaudRate.Baud_4800),
    (5, BaudRate.Baud_9600),
    (6, BaudRate.Baud_14400),
    (7, BaudRate.Baud_19200),
    (8, BaudRate.Baud_28800),
    (9, BaudRate.Baud_38400),
    (10, BaudRate.Baud_57600),
    (11, BaudRate.Baud_115200)]

/-- The derived `ToPrimitive`, `src/ur20_1com_232_485_422.rs:110-123`. -/
instance : ToPrimitive BaudRate where
  to_u16 x := match x with
    | BaudRate.Baud_300 => some 0
    | BaudRate.Baud_600 => some 1
    | BaudRate.Baud_1200 => some 2
    | BaudRate.Baud_2400 => some 3
    | BaudRate.Baud_4800 => some 4
    | BaudRate.Baud_9600 => some 5
    | BaudRate.Baud_14400 => some 6
    | BaudRate.Baud_19200 => some 7
    | BaudRate.Baud_28800 => some 8
    | BaudRate.Baud_38400 => some 9
    | BaudRate.Baud_57600 => some 10
    | BaudRate.Baud_115200 => some 11

/-- `StopBit` has no other variants, `src/ur20_1com_232_485_422.rs:127-130`. -/
theorem StopBit.variants (x : StopBit) : x ∈ [
    StopBit.OneBit,
    StopBit.TwoBits] := by
  cases x <;> simp

/-- The derived `FromPrimitive`, `src/ur20_1com_232_485_422.rs:127-130`. -/
instance : FromPrimitive StopBit where
  from_u16 n := lookup_code n [
    (0, StopBit.OneBit),
    (1, StopBit.TwoBits)]

/-- The derived `ToPrimitive`, `src/ur20_1com_232_485_422.rs:127-130`. -/
instance : ToPrimitive StopBit where
  to_u16 x := match x with
    | StopBit.OneBit => some 0
    | StopBit.TwoBits => some 1

/-- `Parity` has no other variants, `src/ur20_1com_232_485_422.rs:134-138`. -/
theorem Parity.variants (x : Parity) : x ∈ [
    Parity.None,
    Parity.Even,
    Parity.Odd] := by
  cases x <;> simp

/-- The derived `FromPrimitive`, `src/ur20_1com_232_485_422.rs:134-138`. -/
instance : FromPrimitive Parity where
  from_u16 n := lookup_code n [
    (0, Parity.None),
    (1, Parity.Even),
    (2, Parity.Odd)]

/-- The derived `ToPrimitive`, `src/ur20_1com_232_485_422.rs:134-138`. -/
instance : ToPrimitive Parity where
  to_u16 x := match x with
    | Parity.None => some 0
    | Parity.Even => some 1
    | Parity.Odd => some 2

/-- `FlowControl` has no other variants, `src/ur20_1com_232_485_422.rs:143-147`. -/
theorem FlowControl.variants (x : FlowControl) : x ∈ [
    FlowControl.None,
    FlowControl.CTS_RTS,
    FlowControl.XON_XOFF] := by
  cases x <;> simp

/-- The derived `FromPrimitive`, `src/ur20_1com_232_485_422.rs:143-147`. -/
instance : FromPrimitive FlowControl where
  from_u16 n := lookup_code n [
    (0, FlowControl.None),
    (1, FlowControl.CTS_RTS),
    (2, FlowControl.XON_XOFF)]

/-- The derived `ToPrimitive`, `src/ur20_1com_232_485_422.rs:143-147`. -/
instance : ToPrimitive FlowControl where
  to_u16 x := match x with
    | FlowControl.None => some 0
    | FlowControl.CTS_RTS => some 1
    | FlowControl.XON_XOFF => some 2

/-- `ProcessDataLength` has no other variants, `src/ur20_1com_232_485_422.rs:151-154`. -/
theorem ProcessDataLength.variants (x : ProcessDataLength) : x ∈ [
    ProcessDataLength.EightBytes,
    ProcessDataLength.SixteenBytes] := by
  cases x <;> simp

/-- The derived `FromPrimitive`, `src/ur20_1com_232_485_422.rs:151-154`. -/
instance : FromPrimitive ProcessDataLength where
  from_u16 n := lookup_code n [
    (0, ProcessDataLength.EightBytes),
    (1, ProcessDataLength.SixteenBytes)]

/-- The derived `ToPrimitive`, `src/ur20_1com_232_485_422.rs:151-154`. -/
instance : ToPrimitive ProcessDataLength where
  to_u16 x := match x with
    | ProcessDataLength.EightBytes => some 0
    | ProcessDataLength.SixteenBytes => some 1

/-- `default`, `src/ur20_1com_232_485_422.rs:278-282`. -/
def ModuleParameters.default (oc : Bool) :
    Res ModuleParameters := do
  pure ({ processDataLen := ProcessDataLength.SixteenBytes } : ModuleParameters)

/-- `default`, `src/ur20_1com_232_485_422.rs:286-298`. -/
def ChannelParameters.default (oc : Bool) :
    Res ChannelParameters := do
  pure ({ operatingMode := OperatingMode.Disabled, dataBits := DataBits.EightBits, baudRate := BaudRate.Baud_9600, stopBit := StopBit.OneBit, parity := Parity.None, flowControl := FlowControl.None, XONChar := Char.ofNat 17, XOFFChar := Char.ofNat 19, terminatingResistor := false } : ChannelParameters)

/-- `parameters_from_raw_data`, `src/ur20_1com_232_485_422.rs:488-568`. -/
def parameters_from_raw_data (oc : Bool) (data : List Word) :
    Res (ModuleParameters × ChannelParameters) := do
  let _ ← (if decide (data.length < 10) then
        (Res.err Error.bufferLength)
      else
        (pure ()))
  let t1 ← ModuleParameters.default oc
  let mod_params := t1
  let t2 ← ChannelParameters.default oc
  let p := t2
  let t3 ← r_index data 0
  let t4 ← (match (FromPrimitive.from_u16 t3 : Option ProcessDataLength) with
      | some x =>
        (pure x)
      | _ =>
        (Res.err Error.channelParameter))
  let mod_params := { mod_params with processDataLen := t4 }
  let t5 ← r_index data 1
  let t6 ← (match (FromPrimitive.from_u16 t5 : Option OperatingMode) with
      | some x =>
        (pure x)
      | _ =>
        (Res.err Error.channelParameter))
  let p := { p with operatingMode := t6 }
  let t7 ← r_index data 2
  let t8 ← (match (FromPrimitive.from_u16 t7 : Option BaudRate) with
      | some x =>
        (pure x)
      | _ =>
        (Res.err Error.channelParameter))
  let p := { p with baudRate := t8 }
  let t9 ← r_index data 3
  let t10 ← (match (FromPrimitive.from_u16 t9 : Option StopBit) with
      | some x =>
        (pure x)
      | _ =>
        (Res.err Error.channelParameter))
  let p := { p with stopBit := t10 }
  let t11 ← r_index data 4
  let t12 ← (match (FromPrimitive.from_u16 t11 : Option Parity) with
      | some x =>
        (pure x)
      | _ =>
        (Res.err Error.channelParameter))
  let p := { p with parity := t12 }
  let t13 ← r_index data 5
  let t14 ← (match (FromPrimitive.from_u16 t13 : Option FlowControl) with
      | some x =>
        (pure x)
      | _ =>
        (Res.err Error.channelParameter))
  let p := { p with flowControl := t14 }
  let t15 ← r_index data 6
  let t16 ← (match (FromPrimitive.from_u16 t15 : Option DataBits) with
      | some x =>
        (pure x)
      | _ =>
        (Res.err Error.channelParameter))
  let p := { p with dataBits := t16 }
  let t17 ← r_index data 7
  let t18 ← (if t17 == 0 then
        (pure false)
      else if t17 == 1 then
        (pure true)
      else
        (Res.err Error.channelParameter))
  let p := { p with terminatingResistor := t18 }
  let t19 ← r_index data 8
  let t21 ← (if decide (0 ≤ t19) && decide (t19 ≤ 255) then
        (do
          let t20 ← r_index data 8
          pure (r_as (r_as t20 : Byte) : Char))
      else
        (Res.err Error.channelParameter))
  let p := { p with XONChar := t21 }
  let t22 ← r_index data 9
  let t24 ← (if decide (0 ≤ t22) && decide (t22 ≤ 255) then
        (do
          let t23 ← r_index data 9
          pure (r_as (r_as t23 : Byte) : Char))
      else
        (Res.err Error.channelParameter))
  let p := { p with XOFFChar := t24 }
  pure (mod_params, p)

/-- `from_modbus_parameter_data`, `src/ur20_1com_232_485_422.rs:157-163`. -/
def Mod.from_modbus_parameter_data (oc : Bool) (data : List Word) :
    Res Mod := do
  let t1 ← parameters_from_raw_data oc data
  let (mod_params, ch_params) := t1
  pure ({ modParams := mod_params, chParams := [ch_params] } : Mod)

/-- `CNT_MASK`, `src/ur20_1com_232_485_422.rs:366-366`. -/
def CNT_MASK : Byte := 24

/-- `cnt_from_status_byte`, `src/ur20_1com_232_485_422.rs:369-371`. -/
def cnt_from_status_byte (oc : Bool) (byte : Byte) :
    Res Nat := do
  let t1 ← r_shr oc (CNT_MASK &&& byte) 3
  pure (r_as t1 : Nat)

/-- `CNT_ACK_MASK`, `src/ur20_1com_232_485_422.rs:367-367`. -/
def CNT_ACK_MASK : Byte := 96

/-- `cnt_ack_from_status_byte`, `src/ur20_1com_232_485_422.rs:378-380`. -/
def cnt_ack_from_status_byte (oc : Bool) (byte : Byte) :
    Res Nat := do
  let t1 ← r_shr oc (CNT_ACK_MASK &&& byte) 5
  pure (r_as t1 : Nat)

/-- `try_from_byte_message`, `src/ur20_1com_232_485_422.rs:167-189`. -/
def ProcessInput.try_from_byte_message (oc : Bool) (bytes : List Byte) :
    Res RsIn := do
  let _ ← (if decide (bytes.length < 2) then
        (Res.err Error.bufferLength)
      else
        (pure ()))
  let t1 ← r_index bytes 0
  let status := t1
  let t2 ← r_index bytes 1
  let data_len := (r_as t2 : Nat)
  let t3 ← r_add oc data_len 2
  let _ ← (if decide (bytes.length < t3) then
        (Res.err Error.bufferLength)
      else
        (pure ()))
  let t4 ← util.test_bit oc status 0
  let t5 ← util.test_bit oc status 1
  let t6 ← cnt_from_status_byte oc status
  let t7 ← cnt_ack_from_status_byte oc status
  let t8 ← util.test_bit oc status 7
  let t9 ← r_add oc data_len 2
  let t10 ← r_slice bytes 2 t9
  let msg := ({ dataAvailable := t4, bufferNearlyFull := t5, rxCnt := t6, txCntAck := t7, ready := t8, data := t10 } : RsIn)
  pure msg

/-- `user_data_len`, `src/ur20_1com_232_485_422.rs:194-200`. -/
def ProcessDataLength.user_data_len (oc : Bool) (self : ProcessDataLength) :
    Res Nat := do
  (match self with
  | ProcessDataLength.EightBytes =>
    (pure 6)
  | ProcessDataLength.SixteenBytes =>
    (pure 14))

/-- `cnt_to_status_byte`, `src/ur20_1com_232_485_422.rs:373-376`. -/
def cnt_to_status_byte (oc : Bool) (cnt : Nat) (byte : Byte) :
    Res Byte := do
  let t1 ← r_shl oc (r_as cnt : Byte) 3
  let byte := byte ||| (CNT_MASK &&& t1)
  pure byte

/-- `cnt_ack_to_status_byte`, `src/ur20_1com_232_485_422.rs:382-385`. -/
def cnt_ack_to_status_byte (oc : Bool) (cnt : Nat) (byte : Byte) :
    Res Byte := do
  let t1 ← r_shl oc (r_as cnt : Byte) 5
  let byte := byte ||| (CNT_ACK_MASK &&& t1)
  pure byte

/-- `try_into_byte_message`, `src/ur20_1com_232_485_422.rs:204-249`. -/
def ProcessOutput.try_into_byte_message (oc : Bool) (self : RsOut) (process_data_length : ProcessDataLength) :
    Res (List Byte) := do
  let _ ← (if (decide (self.txCnt > 3)) || (decide (self.rxCntAck > 3)) then
        (Res.err Error.sequenceNumber)
      else
        (pure ()))
  let t1 ← ProcessDataLength.user_data_len oc process_data_length
  let _ ← (if decide (self.data.length > t1) then
        (Res.err Error.dataLength)
      else
        (pure ()))
  let status : Byte := 0
  let status ← (if self.rxBufFlush then
        (do
          let t2 ← util.set_bit oc status 0
          let status := t2
          pure status)
      else
        (pure status))
  let status ← (if self.txBufFlush then
        (do
          let t3 ← util.set_bit oc status 1
          let status := t3
          pure status)
      else
        (pure status))
  let status ← (if self.disableTxHwBuffer then
        (do
          let t4 ← util.set_bit oc status 2
          let status := t4
          pure status)
      else
        (pure status))
  let t5 ← cnt_to_status_byte oc self.txCnt status
  let status := t5
  let t6 ← cnt_ack_to_status_byte oc self.rxCntAck status
  let status := t6
  let status ← (if self.reset then
        (do
          let t7 ← util.set_bit oc status 7
          let status := t7
          pure status)
      else
        (pure status))
  let byte_count ← (match process_data_length with
      | ProcessDataLength.EightBytes =>
        (pure 8)
      | ProcessDataLength.SixteenBytes =>
        (pure 16))
  let msg : List Byte := List.replicate byte_count 0
  let t8 ← r_set msg 0 status
  let msg := t8
  let t9 ← r_set msg 1 (r_as self.data.length : Byte)
  let msg := t9
  let t10 ← r_collect (r_enumerate (r_iter self.data))
  let msg ← r_loop t10 msg (fun msg (i, d) =>
        (do
          let t11 ← r_add oc 2 i
          let t12 ← r_set msg t11 d
          let msg := t12
          pure msg))
  pure msg

/-- `try_from_byte_message`, `src/ur20_1com_232_485_422.rs:251-274`. -/
def ProcessOutput.try_from_byte_message (oc : Bool) (bytes : List Byte) :
    Res RsOut := do
  let _ ← (if decide (bytes.length < 2) then
        (Res.err Error.bufferLength)
      else
        (pure ()))
  let t1 ← r_index bytes 0
  let status := t1
  let t2 ← r_index bytes 1
  let data_len := (r_as t2 : Nat)
  let t3 ← r_add oc data_len 2
  let _ ← (if decide (bytes.length < t3) then
        (Res.err Error.bufferLength)
      else
        (pure ()))
  let t4 ← util.test_bit oc status 0
  let t5 ← util.test_bit oc status 1
  let t6 ← util.test_bit oc status 2
  let t7 ← cnt_from_status_byte oc status
  let t8 ← cnt_ack_from_status_byte oc status
  let t9 ← util.test_bit oc status 7
  let t10 ← r_add oc data_len 2
  let t11 ← r_slice bytes 2 t10
  let msg := ({ rxBufFlush := t4, txBufFlush := t5, disableTxHwBuffer := t6, txCnt := t7, rxCntAck := t8, reset := t9, data := t11 } : RsOut)
  pure msg

/-- `default`, `src/ur20_1com_232_485_422.rs:302-307`. -/
def Mod.default (oc : Bool) :
    Res Mod := do
  let t1 ← ModuleParameters.default oc
  let t2 ← ChannelParameters.default oc
  pure ({ modParams := t1, chParams := [t2] } : Mod)

/-- `module_type`, `src/ur20_1com_232_485_422.rs:311-313`. -/
def Mod.module_type (oc : Bool) (self : Mod) :
    Res ModuleType := do
  pure ModuleType.UR20_1COM_232_485_422

/-- `process_input_byte_count`, `src/ur20_1com_232_485_422.rs:317-322`. -/
def Mod.process_input_byte_count (oc : Bool) (self : Mod) :
    Res Nat := do
  (match self.modParams.processDataLen with
  | ProcessDataLength.EightBytes =>
    (pure 8)
  | ProcessDataLength.SixteenBytes =>
    (pure 16))

/-- `process_output_byte_count`, `src/ur20_1com_232_485_422.rs:323-328`. -/
def Mod.process_output_byte_count (oc : Bool) (self : Mod) :
    Res Nat := do
  (match self.modParams.processDataLen with
  | ProcessDataLength.EightBytes =>
    (pure 8)
  | ProcessDataLength.SixteenBytes =>
    (pure 16))

/-- `process_input_data`, `src/ur20_1com_232_485_422.rs:329-337`. -/
def Mod.process_input_data (oc : Bool) (self : Mod) (data : List Word) :
    Res (List ChannelValue) := do
  let t2 ← r_fold (r_iter data) []
        (fun x elem =>
          (do
            let x := x ++ [(r_as (elem &&& 255) : Byte)]
            let t1 ← r_shr oc elem 8
            let x := x ++ [(r_as t1 : Byte)]
            pure x))
  let buf := t2
  let t3 ← ProcessInput.try_from_byte_message oc buf
  let current_input := t3
  pure [ChannelValue.comRsIn current_input]

/-- `process_output_data`, `src/ur20_1com_232_485_422.rs:338-346`. -/
def Mod.process_output_data (oc : Bool) (self : Mod) (data : List Word) :
    Res (List ChannelValue) := do
  let t2 ← r_fold (r_iter data) []
        (fun x elem =>
          (do
            let x := x ++ [(r_as (elem &&& 255) : Byte)]
            let t1 ← r_shr oc elem 8
            let x := x ++ [(r_as t1 : Byte)]
            pure x))
  let buf := t2
  let t3 ← ProcessOutput.try_from_byte_message oc buf
  let current_output := t3
  pure [ChannelValue.comRsOut current_output]

/-- `process_output_values`, `src/ur20_1com_232_485_422.rs:347-363`. -/
def Mod.process_output_values (oc : Bool) (self : Mod) (values : List ChannelValue) :
    Res (List Word) := do
  let _ ← (if values.length != 1 then
        (Res.err Error.channelValue)
      else
        (pure ()))
  let t1 ← r_index values 0
  (match t1 with
  | ChannelValue.comRsOut current_output =>
    (do
      let t2 ← ProcessDataLength.user_data_len oc self.modParams.processDataLen
      let count := t2
      let _ ← (if decide (current_output.data.length > count) then
            (Res.err Error.bufferLength)
          else
            (pure ()))
      let t3 ← ProcessOutput.try_into_byte_message oc current_output self.modParams.processDataLen
      let msg := t3
      let t4 ← util.u8_to_u16 oc msg
      pure t4)
  | _ =>
    (Res.err Error.channelValue))

/-- The trait object of a module, `src/ur20_1com_232_485_422.rs:316-364`. -/
instance : ToDyn Mod where
  toDyn oc self := {
    module_type := Mod.module_type oc self
    process_input_byte_count := Mod.process_input_byte_count oc self
    process_output_byte_count := Mod.process_output_byte_count oc self
    process_input_data := Mod.process_input_data oc self
    process_output_data := Mod.process_output_data oc self
    process_output_values := Mod.process_output_values oc self }

/-- The fields of `MessageProcessor`, `src/ur20_1com_232_485_422.rs:388-394`. -/
def MessageProcessor.fields (x : Com.MessageProcessor) : Com.InitState × Nat × (List Byte) × (List (List Byte)) × ProcessDataLength :=
  (x.initState, x.lastRxCnt, x.inData, x.outData, x.processDataLen)

/-- `MessageProcessor` has no other fields. -/
theorem MessageProcessor.fields_all (x : Com.MessageProcessor) : x = { initState := x.initState, lastRxCnt := x.lastRxCnt, inData := x.inData, outData := x.outData, processDataLen := x.processDataLen } := rfl

/-- `InitState` has no other variants, `src/ur20_1com_232_485_422.rs:397-401`. -/
theorem InitState.variants (x : Com.InitState) : x ∈ [
    Com.InitState.clearBuffers,
    Com.InitState.reset,
    Com.InitState.done] := by
  cases x <;> simp

/-- `new`, `src/ur20_1com_232_485_422.rs:406-414`. -/
def MessageProcessor.new (oc : Bool) (process_data_len : ProcessDataLength) :
    Res Com.MessageProcessor := do
  pure ({ initState := Com.InitState.clearBuffers, lastRxCnt := 0, inData := [], outData := [], processDataLen := process_data_len } : Com.MessageProcessor)

/-- `inc_cnt`, `src/ur20_1com_232_485_422.rs:452-458`. -/
def MessageProcessor.inc_cnt (oc : Bool) (tx_cnt_ack : Nat) :
    Res Nat := do
  let t1 ← r_add oc tx_cnt_ack 1
  let tx_cnt_ack := t1
  let tx_cnt_ack ← (if decide (tx_cnt_ack > 3) then
        (do
          let tx_cnt_ack := 0
          pure tx_cnt_ack)
      else
        (pure tx_cnt_ack))
  pure tx_cnt_ack

/-- `next`, `src/ur20_1com_232_485_422.rs:418-450`. -/
def MessageProcessor.next (oc : Bool) (self : Com.MessageProcessor) (input : RsIn) (output : RsOut) :
    Res (Com.MessageProcessor × RsOut) := do
  let out_msg := output
  let (out_msg, self) ← (if self.initState == Com.InitState.done then
        (do
          let t2 ← (if (!self.outData.isEmpty) then
                (do
                  let t1 ← MessageProcessor.inc_cnt oc input.txCntAck
                  pure (t1 != output.txCnt))
              else (pure false))
          let (out_msg, self) ← (if t2 then
                (do
                  let t3 ← MessageProcessor.inc_cnt oc input.txCntAck
                  let out_msg := { out_msg with txCnt := t3 }
                  let t4 ← r_index self.outData 0
                  let self := { self with outData := (self.outData).eraseIdx 0 }
                  let out_msg := { out_msg with data := t4 }
                  pure (out_msg, self))
              else
                (pure (out_msg, self)))
          let self ← (if input.dataAvailable && (self.lastRxCnt != input.rxCnt) then
                (do
                  let self := { self with inData := self.inData ++ input.data }
                  let self := { self with lastRxCnt := input.rxCnt }
                  pure self)
              else
                (pure self))
          pure (out_msg, self))
      else
        (do
          let out_msg := { out_msg with data := [] }
          let (out_msg, self) ← (match self.initState with
              | Com.InitState.clearBuffers =>
                (do
                  let out_msg := { out_msg with reset := false }
                  let out_msg := { out_msg with rxBufFlush := true }
                  let out_msg := { out_msg with txBufFlush := true }
                  let self := { self with initState := Com.InitState.reset }
                  pure (out_msg, self))
              | Com.InitState.reset =>
                (do
                  let out_msg := { out_msg with reset := true }
                  let out_msg := { out_msg with rxBufFlush := false }
                  let out_msg := { out_msg with txBufFlush := false }
                  let self := { self with lastRxCnt := 4 }
                  let self := { self with initState := Com.InitState.done }
                  pure (out_msg, self))
              | _ =>
                (Res.panic))
          pure (out_msg, self)))
  let out_msg := { out_msg with rxCntAck := input.rxCnt }
  pure (self, out_msg)

/-- `read`, `src/ur20_1com_232_485_422.rs:462-473`. -/
def MessageProcessor.read (oc : Bool) (self : Com.MessageProcessor) (buf : List Byte) :
    Res (Com.MessageProcessor × List Byte × Nat) := do
  (if self.inData.isEmpty then
    (pure (self, buf, 0))
  else
    (do
      let len := min buf.length self.inData.length
      let t1 ← r_collect (r_range 0 len)
      let (self, buf) ← r_loop t1 (self, buf) (fun (self, buf) i =>
            (do
              let x ← r_index buf i
              let t2 ← r_index self.inData 0
              let self := { self with inData := (self.inData).eraseIdx 0 }
              let x := t2
              let buf ← r_set buf i x
              pure (self, buf)))
      pure (self, buf, len)))

/-- `write`, `src/ur20_1com_232_485_422.rs:477-482`. -/
def MessageProcessor.write (oc : Bool) (self : Com.MessageProcessor) (buf : List Byte) :
    Res (Com.MessageProcessor × Nat) := do
  let t1 ← ProcessDataLength.user_data_len oc self.processDataLen
  let t2 ← r_chunks buf t1
  let self ← r_loop t2 self (fun self c =>
        (do
          let self := { self with outData := self.outData ++ [(r_to_vec c)] }
          pure self))
  pure (self, buf.length)

/-- `flush`, `src/ur20_1com_232_485_422.rs:483-485`. -/
def MessageProcessor.flush (oc : Bool) (self : Com.MessageProcessor) :
    Res (Com.MessageProcessor × Unit) := do
  pure (self, ())

end Ur20.Src.ur20_1com_232_485_422
