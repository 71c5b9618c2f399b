import Verif.Spec.SerialDevice

/-!
# Specification: a message processor used directly

A `MessageProcessor` is part of the public API and can be used without a coupler, with any process
data. Histories are lists of calls (`Op`); the calls before and the frames they got decide which
frames are taken and what is sent.
-/

namespace Ur20.Spec

open Com

/-- The bytes that arrive in a history: `n` cycles happened before, `last` is the number of the last
frame taken. The first two cycles initialise the module. After them a frame with data is taken
unless it has the number of the last frame taken. -/
def arriving (n : Nat) (last : Option Nat) : List Op → List Byte
  | [] => []
  | .next i _ :: ops =>
    if 2 ≤ n ∧ i.dataAvailable ∧ last ≠ some i.rxCnt then
      i.data ++ arriving (n + 1) (some i.rxCnt) ops
    else arriving (n + 1) last ops
  | _ :: ops => arriving n last ops

/-- The bytes given to `write` in a history. -/
def writing : List Op → List Byte
  | [] => []
  | .write b :: ops => b ++ writing ops
  | _ :: ops => writing ops

/-- The bytes returned by the reads of a history. -/
def reading (p : MessageProcessor) : List Op → List Byte
  | [] => []
  | op :: ops =>
    (match op with
      | .read n => match p.read n with
        | .ok r => r.2
        | _ => []
      | _ => []) ++ reading (op.apply p) ops

/-- The data of the segments that a history starts: the cycles that return another segment number
than that of the output image they got. -/
def sending (p : MessageProcessor) : List Op → List Byte
  | [] => []
  | op :: ops =>
    (match op with
      | .next i o => if (p.next i o).2.txCnt ≠ o.txCnt then (p.next i o).2.data else []
      | _ => []) ++ sending (op.apply p) ops

end Ur20.Spec
