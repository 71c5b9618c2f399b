import Verif.Spec.Skipped
import Verif.Spec.SourcePower

/-!
# Specification: which received segments are lost if the station may lose power, for the translated
# source
-/

namespace Ur20.Spec

namespace Src.PowerNet

/-- The segment of module `j` a step loses, as in `Spec.PowerNet.skippedIn`. -/
noncomputable def skippedIn (oc : Bool) (cfg : CouplerConfig) (w : Wiring) (ord : Imp.Orders)
    (fill : Nat → Byte) (s : Src.PowerNet) (j : Nat) : StationEv → List (List Byte)
  | .ev .crash => []
  | .ev e =>
    let t := s.net.step oc cfg w ord fill e
    if t.cycles = s.net.cycles + 1 ∧ 2 < t.cycles ∧ (s.net.line j).avail = true ∧
        (s.net.line j).fresh = true ∧ s.shown j = some (s.net.line j).rxCnt then
      [(s.net.line j).rxData]
    else []
  | .power _ _ => []

/-- The segments of module `j` a schedule loses; step number `k` uses `ord k` and `fill k`. -/
noncomputable def skipped (oc : Bool) (cfg : CouplerConfig) (w : Wiring) (ord : Nat → Imp.Orders)
    (fill : Nat → Nat → Byte) (j : Nat) : Nat → Src.PowerNet → List StationEv → List (List Byte)
  | _, _, [] => []
  | k, s, e :: evs => s.skippedIn oc cfg w (ord k) (fill k) j e ++
      skipped oc cfg w ord fill j (k + 1) (s.step oc cfg w (ord k) (fill k) e) evs

end Src.PowerNet

end Ur20.Spec
