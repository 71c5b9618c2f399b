import Verif.Model.Com

/-!
# The message processor, statement by statement (`src/ur20_1com_232_485_422.rs`)

`Model/Com.lean` takes counters as unbounded numbers and leaves out the buffer that `read` fills.
Here `usize` has `w` bits and `read` gets a buffer with any contents.
-/

namespace Ur20.ImpCom

open Com

/-- `inc_cnt`, `src/ur20_1com_232_485_422.rs:452-458`, for a `usize` of `w` bits; `oc` tells whether
overflow checks are on. -/
def incCnt (oc : Bool) (w : Nat) (txCntAck : Nat) : Res Nat := do
  let c ← if txCntAck + 1 < 2 ^ w then pure (txCntAck + 1)
    else if oc then Res.panic else pure ((txCntAck + 1) % 2 ^ w)
  pure (if c > 3 then 0 else c)

/-- `self.out_data.remove(0)`: panics on an empty vector. -/
def removeFirst : List (List Byte) → Res (List Byte × List (List Byte))
  | [] => .panic
  | d :: ds => .ok (d, ds)

/-- The transmit statement of `next`, `src/ur20_1com_232_485_422.rs:421-424`. `&&` does not
evaluate its right hand side when the queue is empty. -/
def transmit (oc : Bool) (w : Nat) (p : MessageProcessor) (input : RsIn) (output outMsg : RsOut) :
    Res (MessageProcessor × RsOut) :=
  if !p.outData.isEmpty then do
    let c ← incCnt oc w input.txCntAck
    if c ≠ output.txCnt then do
      let c ← incCnt oc w input.txCntAck
      let outMsg := { outMsg with txCnt := c }
      let r ← removeFirst p.outData
      pure ({ p with outData := r.2 }, { outMsg with data := r.1 })
    else pure (p, outMsg)
  else pure (p, outMsg)

/-- The receive statement of `next`, `src/ur20_1com_232_485_422.rs:425-428`. -/
def receive (p : MessageProcessor) (input : RsIn) : MessageProcessor :=
  if input.dataAvailable && p.lastRxCnt != input.rxCnt then
    let p := { p with inData := p.inData ++ input.data }
    { p with lastRxCnt := input.rxCnt }
  else p

/-- `MessageProcessor::next`, `src/ur20_1com_232_485_422.rs:418-450`. -/
def next (oc : Bool) (w : Nat) (p : MessageProcessor) (input : RsIn) (output : RsOut) :
    Res (MessageProcessor × RsOut) := do
  let outMsg := output
  let (p, outMsg) ←
    if p.initState = .done then do
      let (p, outMsg) ← transmit oc w p input output outMsg
      pure (receive p input, outMsg)
    else
      let outMsg := { outMsg with data := [] }
      match p.initState with
      | .clearBuffers =>
        let outMsg := { outMsg with reset := false }
        let outMsg := { outMsg with rxBufFlush := true }
        let outMsg := { outMsg with txBufFlush := true }
        let p := { p with initState := .reset }
        pure (p, outMsg)
      | .reset =>
        let outMsg := { outMsg with reset := true }
        let outMsg := { outMsg with rxBufFlush := false }
        let outMsg := { outMsg with txBufFlush := false }
        let p := { p with lastRxCnt := 4 }
        let p := { p with initState := .done }
        pure (p, outMsg)
      | .done => .panic
  let outMsg := { outMsg with rxCntAck := input.rxCnt }
  pure (p, outMsg)

/-- `for x in buf.iter_mut().take(len) { *x = self.in_data.remove(0) }`,
`src/ur20_1com_232_485_422.rs:468-470`: the buffer and the receive buffer afterwards. -/
def readLoop : Nat → List Byte → List Byte → Res (List Byte × List Byte)
  | 0, buf, d => .ok (buf, d)
  | _ + 1, [], d => .ok ([], d)
  | _ + 1, _ :: _, [] => .panic
  | n + 1, _ :: buf, b :: d => (readLoop n buf d).bind fun r => .ok (b :: r.1, r.2)

/-- `Read::read`, `src/ur20_1com_232_485_422.rs:461-474`: the new state, the contents of the buffer
and the result. -/
def read (p : MessageProcessor) (buf : List Byte) : Res (MessageProcessor × List Byte × Nat) :=
  if p.inData.isEmpty then .ok (p, buf, 0)
  else
    let len := min buf.length p.inData.length
    (readLoop len buf p.inData).bind fun r => .ok ({ p with inData := r.2 }, r.1, len)

/-- The loop of `Write::write`, `src/ur20_1com_232_485_422.rs:478-480`. -/
def writeLoop (p : MessageProcessor) : List (List Byte) → MessageProcessor
  | [] => p
  | c :: cs => writeLoop { p with outData := p.outData ++ [c] } cs

/-- `Write::write`, `src/ur20_1com_232_485_422.rs:477-482`. -/
def write (p : MessageProcessor) (buf : List Byte) : MessageProcessor × Nat :=
  (writeLoop p (chunks p.processDataLen.userDataLen buf), buf.length)

end Ur20.ImpCom
