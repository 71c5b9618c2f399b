import Verif.Spec.Station

/-!
# Specification: which segments are lost on the way to a serial device

For each step of an unreliable schedule (`Spec.Unreliable`, `Spec.Station`) the segments it loses.
-/

namespace Ur20.Spec

open Com

/-- A division of what was written: pieces in the order they were written, each with the information
whether it is kept. -/
abbrev Pieces := List (List Byte × Bool)

/-- All pieces together. -/
def Pieces.all (l : Pieces) : List Byte := (l.map (·.1)).flatten

/-- The pieces that are kept, together. -/
def Pieces.kept (l : Pieces) : List Byte := ((l.filter (·.2)).map (·.1)).flatten

/-- The pieces that are not kept. -/
def Pieces.gone (l : Pieces) : List (List Byte) := (l.filter (!·.2)).map (·.1)

namespace Sys

/-- The segment in an image that has been returned but not transferred, if it is a new one. -/
def newSegment (s : Sys) : List (List Byte) :=
  match s.pending with
  | some r => if r.txCnt ≠ s.out.txCnt then [r.data] else []
  | none => []

/-- The segments a step loses: a lost image loses the new segment it carries; a crash loses that one
and those in the queue; the first images of a restarted application carry no data and replace the
segment of an earlier image if the device has not taken it over. -/
def lostIn (s : Sys) : UEv → List (List Byte)
  | .lost => s.newSegment
  | .crash => s.newSegment ++ s.p.outData
  | .ev .finish =>
    match s.pending with
    | some r =>
      if s.out.txCnt = (s.ack + 1) % 4 ∧ r.txCnt = s.out.txCnt ∧ r.data ≠ s.out.data then
        [s.out.data]
      else []
    | none => []
  | .ev _ => []

/-- The segments a schedule loses. -/
def lostSegments (len : ProcessDataLength) : Sys → List UEv → List (List Byte)
  | _, [] => []
  | s, e :: evs => s.lostIn e ++ lostSegments len (s.ustep len e) evs

end Sys

/-- The number of lost images in a schedule. -/
def lostImages : List UEv → Nat
  | [] => 0
  | .lost :: evs => lostImages evs + 1
  | _ :: evs => lostImages evs

namespace Plant

/-- The segments in the transmit queue of module `j`. -/
def queue (s : Plant) (j : Nat) : List (List Byte) :=
  match s.c.processors j with
  | some p => p.outData
  | none => []

/-- The segment in an image that has been returned but not transferred, if it is a new one. -/
def newSegment (len : ProcessDataLength) (oo : Word) (s : Plant) : List (List Byte) :=
  match outFrame len oo s.out, s.pending.bind (outFrame len oo) with
  | some o, some r => if r.txCnt ≠ o.txCnt then [r.data] else []
  | _, _ => []

/-- The segments a step loses: as in `Sys.lostIn`; a failing cycle loses the segment it takes from
the queue, if it takes one. -/
noncomputable def lostIn (oc : Bool) (cfg : CouplerConfig) (j : Nat) (len : ProcessDataLength)
    (oi oo : Word) (s : Plant) : UPEv → List (List Byte)
  | .lost => s.newSegment len oo
  | .crash => s.newSegment len oo ++ s.queue j
  | .failing pi => (s.queue j).take
      ((s.queue j).length - ((s.ustep oc cfg j len oi oo (.failing pi)).queue j).length)
  | .ev .finish =>
    match outFrame len oo s.out, s.pending.bind (outFrame len oo) with
    | some o, some r =>
      if o.txCnt = (s.ack + 1) % 4 ∧ r.txCnt = o.txCnt ∧ r.data ≠ o.data then [o.data] else []
    | _, _ => []
  | .ev _ => []

/-- The segments a schedule loses. -/
noncomputable def lostSegments (oc : Bool) (cfg : CouplerConfig) (j : Nat)
    (len : ProcessDataLength) (oi oo : Word) : Plant → List UPEv → List (List Byte)
  | _, [] => []
  | s, e :: evs => s.lostIn oc cfg j len oi oo e ++
      lostSegments oc cfg j len oi oo (s.ustep oc cfg j len oi oo e) evs

end Plant

/-- The number of lost images and failing cycles in a schedule. -/
def lostOrFailed : List UPEv → Nat
  | [] => 0
  | .lost :: evs => lostOrFailed evs + 1
  | .failing _ :: evs => lostOrFailed evs + 1
  | _ :: evs => lostOrFailed evs

end Ur20.Spec
