import Verif.Model.Types
import Verif.Model.F32
import Verif.Model.Util

/-!
# Channel values and addresses (`src/lib.rs`)
-/

namespace Ur20

/-- Serial module input, `src/ur20_1com_232_485_422.rs:21-40`. -/
structure RsIn where
  dataAvailable : Bool
  bufferNearlyFull : Bool
  rxCnt : Nat
  txCntAck : Nat
  ready : Bool
  data : List Byte
  deriving DecidableEq, Repr

/-- Serial module output, `src/ur20_1com_232_485_422.rs:43-70`. -/
structure RsOut where
  rxBufFlush : Bool
  txBufFlush : Bool
  disableTxHwBuffer : Bool
  txCnt : Nat
  rxCntAck : Nat
  reset : Bool
  data : List Byte
  deriving DecidableEq, Repr

/-- Counter module input, `src/ur20_2fcnt_100.rs:22-29`. A `Duration` is its number of
nanoseconds. -/
structure FcntIn where
  duration : Option Nat
  count : BitVec 32
  active : Bool
  deriving DecidableEq, Repr

/-- `Command`, `src/ur20_2fcnt_100.rs:44-49`. -/
inductive Command where
  | start
  | stop
  deriving DecidableEq, Repr

/-- Counter module output, `src/ur20_2fcnt_100.rs:52-57`. A `Duration` is its number of
nanoseconds. -/
structure FcntOut where
  duration : Nat
  command : Option Command
  deriving DecidableEq, Repr

/-- Safe power feed input, `src/ur20_pf_o_1di_sil.rs:14-30`. -/
structure SilIn where
  safetyInput : Bool
  autostart : Bool
  manualStart : Bool
  safetyInputChannel1 : Bool
  safetyInputChannel2 : Bool
  volt24SafeOutput : Bool
  volt24Dc : Bool
  deriving DecidableEq, Repr

/-- `ChannelValue`, `src/lib.rs:42-63`. -/
inductive ChannelValue where
  | bit (b : Bool)
  | decimal32 (v : F32)
  | comRsIn (v : RsIn)
  | comRsOut (v : RsOut)
  | fcntIn (v : FcntIn)
  | fcntOut (v : FcntOut)
  | silPFIn (v : SilIn)
  | bytes (v : List Byte)
  | disabled
  | none
  deriving DecidableEq, Repr

/-- `Address`, `src/lib.rs:67-72`. -/
structure Address where
  module : Nat
  channel : Nat
  deriving DecidableEq, Repr

end Ur20
