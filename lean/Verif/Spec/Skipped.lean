import Verif.Spec.Lost
import Verif.Spec.PowerNet

/-!
# Specification: which received segments are lost if the station may lose power
-/

namespace Ur20.Spec

namespace PowerNet

/-- The segment of module `j` a step loses: one that is shown to the initialised module for the first
time, with the number of the last one shown before. -/
noncomputable def skippedIn (oc : Bool) (cfg : CouplerConfig) (w : Wiring) (s : PowerNet) (j : Nat) :
    StationEv → List (List Byte)
  | .ev .crash => []
  | .ev e =>
    let t := s.net.step oc cfg w e
    if t.cycles = s.net.cycles + 1 ∧ 2 < t.cycles ∧ (s.net.line j).avail = true ∧
        (s.net.line j).fresh = true ∧ s.shown j = some (s.net.line j).rxCnt then
      [(s.net.line j).rxData]
    else []
  | .power _ _ => []

/-- The segments of module `j` a schedule loses. -/
noncomputable def skipped (oc : Bool) (cfg : CouplerConfig) (w : Wiring) (j : Nat) :
    PowerNet → List StationEv → List (List Byte)
  | _, [] => []
  | s, e :: evs => s.skippedIn oc cfg w j e ++ skipped oc cfg w j (s.step oc cfg w e) evs

end PowerNet

/-- The number of power failures in a schedule. -/
def powerFailures : List StationEv → Nat
  | [] => 0
  | .power _ _ :: evs => powerFailures evs + 1
  | .ev _ :: evs => powerFailures evs

end Ur20.Spec
