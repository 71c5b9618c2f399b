import Verif.Model.Com

/-!
# Specification: late and lost images

One processor, the serial module (the device) and the transfers between them. The application keeps
the image returned by the last cycle and uses it for the next one. Images of the inputs and of the
outputs are on the way for any time and may get lost, but do not overtake each other; the application
may use the same image of the inputs for any number of cycles and send its image any number of times.
-/

namespace Ur20.Spec

open Com

/-- The processor, the images and the device. The last five fields record what happened. -/
structure Late where
  /-- the processor -/
  p : MessageProcessor
  /-- the image the last cycle returned -/
  kept : RsOut
  /-- the image of the inputs the application has -/
  inp : RsIn
  /-- images of the inputs on their way to the application, oldest first -/
  ins : List RsIn
  /-- images of the outputs on their way to the device, oldest first -/
  outs : List RsOut
  /-- the image of the outputs the device has -/
  out : RsOut
  /-- device: the last segment number it has taken over -/
  ack : Nat
  /-- device: number of the segment it presents -/
  rxCnt : Nat
  /-- device: whether it presents a segment -/
  avail : Bool
  /-- number of cycles -/
  cycles : Nat
  /-- everything written by the application -/
  written : List Byte
  /-- everything the device has taken over -/
  received : List Byte
  /-- the segments the device presents or presented, the current one last -/
  shown : List (List Byte)
  /-- the number of segments presented until the end of the initialisation (the second cycle) -/
  early : Nat
  /-- everything read by the application -/
  delivered : List Byte

/-- One step of the schedule. -/
inductive LateEv where
  /-- the application writes -/
  | write (buf : List Byte)
  /-- the application reads with a buffer of `n` bytes -/
  | read (n : Nat)
  /-- the device sends an image of its inputs -/
  | sample (nearlyFull ready : Bool)
  /-- the oldest image of the inputs that is on the way arrives -/
  | arrive
  /-- the `n`-th image of the inputs on the way is lost -/
  | loseIn (n : Nat)
  /-- a cycle; the returned image is sent -/
  | cycle
  /-- the application sends the last returned image again -/
  | again
  /-- the oldest image of the outputs that is on the way arrives -/
  | deliver
  /-- the `n`-th image of the outputs on the way is lost -/
  | loseOut (n : Nat)
  /-- the device looks at the image of the outputs and takes over a new segment, if there is one -/
  | take
  /-- the device presents a new segment, if the previous one has been acknowledged -/
  | post (segment : List Byte)
  /-- the device stops presenting an acknowledged segment -/
  | hide

namespace Late

/-- The image of the inputs the device sends. -/
def input (s : Late) (nearlyFull ready : Bool) : RsIn :=
  { dataAvailable := s.avail, bufferNearlyFull := nearlyFull, rxCnt := s.rxCnt,
    txCntAck := s.ack, ready := ready, data := s.shown.getLast?.getD [] }

/-- The effect of one step. Steps that are not enabled have no effect. -/
def step (s : Late) : LateEv → Late
  | .write buf => { s with p := (s.p.write buf).1, written := s.written ++ buf }
  | .read n => match s.p.read n with
    | .ok r => { s with p := r.1, delivered := s.delivered ++ r.2 }
    | _ => s
  | .sample nf rdy => { s with ins := s.ins ++ [s.input nf rdy] }
  | .arrive => match s.ins with
    | i :: ins => { s with inp := i, ins := ins }
    | [] => s
  | .loseIn n => { s with ins := s.ins.eraseIdx n }
  | .cycle =>
    let r := s.p.next s.inp s.kept
    { s with p := r.1, kept := r.2, outs := s.outs ++ [r.2], cycles := s.cycles + 1
             early := if s.cycles < 2 then s.shown.length else s.early }
  | .again => { s with outs := s.outs ++ [s.kept] }
  | .deliver => match s.outs with
    | o :: outs => { s with out := o, outs := outs }
    | [] => s
  | .loseOut n => { s with outs := s.outs.eraseIdx n }
  | .take =>
    if s.out.txCnt = (s.ack + 1) % 4 then
      { s with ack := s.out.txCnt, received := s.received ++ s.out.data }
    else s
  | .post seg =>
    if s.out.rxCntAck = s.rxCnt then
      { s with rxCnt := (s.rxCnt + 1) % 4, avail := true, shown := s.shown ++ [seg] }
    else s
  | .hide => if s.out.rxCntAck = s.rxCnt then { s with avail := false } else s

/-- A whole schedule. -/
def run (s : Late) (evs : List LateEv) : Late := evs.foldl step s

/-- A new processor connected to a device in an arbitrary state. The application has just read the
images; that of the outputs carries no data. -/
structure Initial (len : ProcessDataLength) (s : Late) : Prop where
  p : s.p = MessageProcessor.new len
  kept : s.kept = s.out
  data : s.out.data = []
  inp : ∃ nf rdy, s.inp = s.input nf rdy
  ins : s.ins = []
  outs : s.outs = []
  ack : s.ack < 4
  rxCnt : s.rxCnt < 4
  shown : s.shown.length = 1
  logs : s.cycles = 0 ∧ s.written = [] ∧ s.received = [] ∧ s.delivered = []

/-- The segment of the last returned image, if the device has not taken it over yet. -/
def inFlight (s : Late) : List Byte := if s.kept.txCnt = (s.ack + 1) % 4 then s.kept.data else []

/-- A round without losses and delays: the application reads the inputs, cycles and sends the image,
and the device looks at it. -/
def round (flags : Bool × Bool) : List LateEv :=
  [.sample flags.1 flags.2, .arrive, .cycle, .deliver, .take]

/-- Rounds without losses and delays, with these flags in the inputs. -/
def rounds (s : Late) (flags : List (Bool × Bool)) : Late := s.run (flags.flatMap round)

end Late

end Ur20.Spec
