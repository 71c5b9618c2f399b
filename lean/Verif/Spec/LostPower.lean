import Verif.Spec.LostNet
import Verif.Spec.PowerNet

/-!
# Specification: which segments are lost if the station may lose power

As `Spec/LostNet.lean`, for the schedules of `Spec/PowerNet.lean`.
-/

namespace Ur20.Spec

open Com

/-- The segment in the output image that the device of module `j` has not taken over, if it is not
empty. -/
def Net.unread (w : Wiring) (s : Net) (j : Nat) : List (List Byte) :=
  match outFrame (w.wire j).len (w.wire j).oo s.out with
  | some f => if f.txCnt = ((s.line j).ack + 1) % 4 ∧ f.data ≠ [] then [f.data] else []
  | none => []

namespace PowerNet

/-- The segments of module `j` a step loses: a power failure loses the one the device has not taken
over. -/
noncomputable def lostIn (oc : Bool) (cfg : CouplerConfig) (w : Wiring) (s : PowerNet) (j : Nat) :
    StationEv → List (List Byte)
  | .ev e => s.net.lostIn oc cfg w j e
  | .power _ _ => s.net.unread w j

/-- The segments of module `j` a schedule loses. -/
noncomputable def lostSegments (oc : Bool) (cfg : CouplerConfig) (w : Wiring) (j : Nat) :
    PowerNet → List StationEv → List (List Byte)
  | _, [] => []
  | s, e :: evs => s.lostIn oc cfg w j e ++ lostSegments oc cfg w j (s.step oc cfg w e) evs

end PowerNet

/-- The number of lost images, failing cycles and power failures in a schedule. -/
def lostOrFailedP : List StationEv → Nat
  | [] => 0
  | .ev .lost :: evs => lostOrFailedP evs + 1
  | .ev (.failing _) :: evs => lostOrFailedP evs + 1
  | .ev _ :: evs => lostOrFailedP evs
  | .power _ _ :: evs => lostOrFailedP evs + 1

end Ur20.Spec
