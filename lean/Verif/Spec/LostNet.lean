import Verif.Spec.Lost
import Verif.Spec.Network

/-!
# Specification: which segments are lost on the way to any number of serial devices

For each step of a schedule of `Spec.Network` the segments of one module it loses.
-/

namespace Ur20.Spec

open Com

namespace Net

/-- The segments in the transmit queue of module `j`. -/
def queue (s : Net) (j : Nat) : List (List Byte) :=
  match s.c.processors j with
  | some p => p.outData
  | none => []

/-- The segment for module `j` in an image that has been returned but not transferred, if it is a
new one. -/
def newSegment (w : Wiring) (s : Net) (j : Nat) : List (List Byte) :=
  match outFrame (w.wire j).len (w.wire j).oo s.out,
    s.pending.bind (outFrame (w.wire j).len (w.wire j).oo) with
  | some o, some r => if r.txCnt ≠ o.txCnt then [r.data] else []
  | _, _ => []

/-- The segments of module `j` a step loses: a lost image loses the new segment it carries; a crash
loses that one and those in the queue; a failing cycle that has taken the value set on the module
loses what is then missing in front of the queue; the first images of a restarted application carry
no data and replace the segment of an earlier image if the device has not taken it over. -/
noncomputable def lostIn (oc : Bool) (cfg : CouplerConfig) (w : Wiring) (s : Net) (j : Nat) :
    NEv → List (List Byte)
  | .lost => s.newSegment w j
  | .crash => s.newSegment w j ++ s.queue j
  | .failing pi =>
    let t := s.step oc cfg w (.failing pi)
    let before := s.queued j ++ sentBytes (s.line j).waiting
    if t.cycles = s.cycles + 1 ∧ (t.queued j).length < before.length then
      [before.take (before.length - (t.queued j).length)]
    else []
  | .finish =>
    match outFrame (w.wire j).len (w.wire j).oo s.out,
      s.pending.bind (outFrame (w.wire j).len (w.wire j).oo) with
    | some o, some r =>
      if o.txCnt = ((s.line j).ack + 1) % 4 ∧ r.txCnt = o.txCnt ∧ r.data ≠ o.data then [o.data]
      else []
    | _, _ => []
  | _ => []

/-- The segments of module `j` a schedule loses. -/
noncomputable def lostSegments (oc : Bool) (cfg : CouplerConfig) (w : Wiring) (j : Nat) :
    Net → List NEv → List (List Byte)
  | _, [] => []
  | s, e :: evs => s.lostIn oc cfg w j e ++ lostSegments oc cfg w j (s.step oc cfg w e) evs

end Net

/-- The number of lost images and failing cycles in a schedule. -/
def lostOrFailedN : List NEv → Nat
  | [] => 0
  | .lost :: evs => lostOrFailedN evs + 1
  | .failing _ :: evs => lostOrFailedN evs + 1
  | _ :: evs => lostOrFailedN evs

end Ur20.Spec
