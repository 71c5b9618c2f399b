import Verif.Model.Com

/-!
# Specification: use of a serial processor and the device at the other end

`Op` is what an application can do with a `MessageProcessor`. `Sys` is a closed system of one
processor, the process images and the serial module (the device), driven by an arbitrary
schedule of `Ev`.
-/

namespace Ur20.Spec

open Com

/-- A call on a `MessageProcessor`. -/
inductive Op where
  | next (input : RsIn) (output : RsOut)
  | write (buf : List Byte)
  | read (n : Nat)

/-- The state after a call. -/
def Op.apply (p : MessageProcessor) : Op → MessageProcessor
  | .next i o => (p.next i o).1
  | .write b => (p.write b).1
  | .read n => match p.read n with
    | .ok r => r.1
    | _ => p

/-- The state after a sequence of calls. -/
def runOps (p : MessageProcessor) (ops : List Op) : MessageProcessor := ops.foldl Op.apply p

/-- The number of `next` calls in a history. -/
def cycles : List Op → Nat
  | [] => 0
  | .next _ _ :: ops => cycles ops + 1
  | _ :: ops => cycles ops

/-- The processor, the images and the device. The last four fields record what happened; nothing
depends on them except `fresh`, which tells whether the presented segment has not been shown to
the initialised processor yet. -/
structure Sys where
  /-- the processor -/
  p : MessageProcessor
  /-- number of completed or started cycles -/
  cycles : Nat
  /-- the output image, as last transferred to the device -/
  out : RsOut
  /-- the result of a cycle that has been computed but not yet transferred -/
  pending : Option RsOut
  /-- device: the last segment number it has taken over -/
  ack : Nat
  /-- device: number of the segment it presents -/
  rxCnt : Nat
  /-- device: whether it presents a segment -/
  avail : Bool
  /-- device: the segment it presents -/
  rxData : List Byte
  /-- everything ever written by the application -/
  written : List Byte
  /-- everything the device has taken over -/
  received : List Byte
  /-- the segments presented to the processor in some cycle after the two initialisation cycles,
  each counted once per presentation -/
  seen : List Byte
  /-- everything ever read by the application -/
  delivered : List Byte
  /-- the current presentation is not yet part of `seen` -/
  fresh : Bool

/-- One step of the schedule. -/
inductive Ev where
  /-- the application writes -/
  | write (buf : List Byte)
  /-- the application reads with a buffer of `n` bytes -/
  | read (n : Nat)
  /-- a cycle starts: the images are read and `next` is called -/
  | start (nearlyFull ready : Bool)
  /-- the cycle ends: the result is transferred to the device -/
  | finish
  /-- the device looks at the output image and takes over a new segment, if there is one -/
  | take
  /-- the device presents a new segment, if the previous one has been acknowledged -/
  | post (segment : List Byte)
  /-- the device stops presenting an acknowledged segment -/
  | hide
  /-- the device restarts counting segments, as after a reset; it does so only while no cycle is
  in progress and the image carries no data -/
  | restart (n : Fin 4)

namespace Sys

/-- The input image the device produces. -/
def input (s : Sys) (nearlyFull ready : Bool) : RsIn :=
  { dataAvailable := s.avail, bufferNearlyFull := nearlyFull, rxCnt := s.rxCnt,
    txCntAck := s.ack, ready := ready, data := s.rxData }

/-- The effect of one step. Steps that are not enabled have no effect. -/
def step (s : Sys) : Ev → Sys
  | .write buf => { s with p := (s.p.write buf).1, written := s.written ++ buf }
  | .read n => match s.p.read n with
    | .ok r => { s with p := r.1, delivered := s.delivered ++ r.2 }
    | _ => s
  | .start nf rdy =>
    if s.pending.isSome then s
    else
      let r := s.p.next (s.input nf rdy) s.out
      let s := { s with p := r.1, pending := some r.2, cycles := s.cycles + 1 }
      if 2 < s.cycles ∧ s.avail = true ∧ s.fresh = true then
        { s with seen := s.seen ++ s.rxData, fresh := false }
      else s
  | .finish => match s.pending with
    | some r => { s with out := r, pending := none }
    | none => s
  | .take =>
    if s.out.txCnt = (s.ack + 1) % 4 then
      { s with ack := s.out.txCnt, received := s.received ++ s.out.data }
    else s
  | .post seg =>
    if s.out.rxCntAck = s.rxCnt then
      { s with rxCnt := (s.rxCnt + 1) % 4, avail := true, rxData := seg, fresh := true }
    else s
  | .hide => if s.out.rxCntAck = s.rxCnt then { s with avail := false } else s
  | .restart n => if s.pending = none ∧ s.out.data = [] then { s with ack := n.val } else s

/-- A whole schedule. -/
def run (s : Sys) (evs : List Ev) : Sys := evs.foldl step s

/-- A fresh processor connected to a device in an arbitrary state, except that the output image
carries no data (nothing is in flight from an earlier life) and counters are below 4. -/
structure Initial (len : ProcessDataLength) (s : Sys) : Prop where
  p : s.p = MessageProcessor.new len
  cycles : s.cycles = 0
  data : s.out.data = []
  pending : s.pending = none
  ack : s.ack < 4
  rxCnt : s.rxCnt < 4
  logs : s.written = [] ∧ s.received = [] ∧ s.seen = [] ∧ s.delivered = [] ∧ s.fresh = true

/-- Bytes that have left the queue but have not been taken over: the segment in the image, if the
device has not taken it over yet, and a new segment in a result that is not transferred yet. -/
def inFlight (s : Sys) : List Byte :=
  (if s.out.txCnt = (s.ack + 1) % 4 then s.out.data else []) ++
  (match s.pending with
    | some r => if r.txCnt ≠ s.out.txCnt then r.data else []
    | none => [])

/-- Bytes waiting in the transmit queue. -/
def queued (s : Sys) : List Byte := s.p.outData.flatten

/-- A complete cycle followed by a look of the device at the image. -/
def round (s : Sys) : Sys := s.run [.start false true, .finish, .take]

end Sys

end Ur20.Spec
