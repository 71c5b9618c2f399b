import Verif.Spec.Power
import Verif.Spec.PowerNet

/-!
# Specification: which segments a device takes over more than once

A power failure of the station can make a device take over a segment it has already taken over: if
the power fails while a cycle is in progress, the image returned by that cycle is still transferred.
-/

namespace Ur20.Spec

/-- Segments, each with the number of its repetitions. -/
abbrev Repeated := List (List Byte × Nat)

/-- The bytes of all segments with their repetitions: a repetition directly follows the segment. -/
def Repeated.all (l : Repeated) : List Byte :=
  (l.map fun p => (List.replicate (p.2 + 1) p.1).flatten).flatten

/-- The bytes of all segments without repetitions. -/
def Repeated.once (l : Repeated) : List Byte := (l.map (·.1)).flatten

/-- The number of repetitions. -/
def Repeated.repeats (l : Repeated) : Nat := (l.map (·.2)).sum

/-- The number of power failures in the middle of a cycle, in the closed system of one processor and
one device. -/
def PowerSys.midCycle (len : ProcessDataLength) : PowerSys → List PowerEv → Nat
  | _, [] => 0
  | s, .power a r :: evs =>
    (if s.sys.pending = none then 0 else 1) + midCycle len (s.step len (.power a r)) evs
  | s, .ev e :: evs => midCycle len (s.step len (.ev e)) evs

/-- The number of power failures in the middle of a cycle. -/
noncomputable def PowerNet.midCycle (oc : Bool) (cfg : CouplerConfig) (w : Wiring) :
    PowerNet → List StationEv → Nat
  | _, [] => 0
  | s, e :: evs => (match e with
      | .power _ _ => if s.net.pending = none then 0 else 1
      | .ev _ => 0) + midCycle oc cfg w (s.step oc cfg w e) evs

end Ur20.Spec
