import Verif.Spec.SerialDevice

/-!
# Specification: lost transfers and restarts of the application

The closed system of `Spec.Sys` with two more kinds of steps: a returned image that never reaches
the device, and a crash of the application, which starts again with a new processor.
-/

namespace Ur20.Spec

open Com

/-- One step of an unreliable schedule. -/
inductive UEv where
  /-- a step of the reliable system -/
  | ev (e : Ev)
  /-- the image returned by the last cycle is lost -/
  | lost
  /-- the application crashes and starts again; what was queued, read ahead or not yet transferred is
  gone -/
  | crash

namespace Sys

/-- The effect of one step. -/
def ustep (len : ProcessDataLength) (s : Sys) : UEv → Sys
  | .ev e => s.step e
  | .lost => { s with pending := none }
  | .crash => { s with p := MessageProcessor.new len, cycles := 0, pending := none, fresh := true }

/-- A whole schedule. -/
def urun (len : ProcessDataLength) (s : Sys) (evs : List UEv) : Sys := evs.foldl (ustep len) s

/-- The last cycle took a new segment from the queue that has not been transferred yet. -/
def NewSegment (s : Sys) : Prop := ∃ r, s.pending = some r ∧ r.txCnt ≠ s.out.txCnt

/-- The schedule has no crash, and whenever an image is lost it carries no new segment. -/
def Harmless (len : ProcessDataLength) : Sys → List UEv → Prop
  | _, [] => True
  | s, .ev e :: evs => Harmless len (s.step e) evs
  | s, .lost :: evs => ¬ s.NewSegment ∧ Harmless len (s.ustep len .lost) evs
  | _, .crash :: _ => False

end Sys

/-- The schedule has no crash. -/
def NoCrash (evs : List UEv) : Prop := ∀ e ∈ evs, e ≠ .crash

end Ur20.Spec
