import Verif.Spec.Repeats
import Verif.Spec.SourcePower

/-!
# Specification: power failures in the middle of a cycle, for the translated source
-/

namespace Ur20.Spec

open Ur20.Src

/-- The number of power failures in the middle of a cycle; step number `k` uses `ord k` and
`fill k`. -/
noncomputable def Src.PowerNet.midCycle (oc : Bool) (cfg : CouplerConfig) (w : Wiring)
    (ord : Nat → Imp.Orders) (fill : Nat → Nat → Byte) :
    Nat → Src.PowerNet → List StationEv → Nat
  | _, _, [] => 0
  | k, s, e :: evs => (match e with
      | .power _ _ => if s.net.pending = none then 0 else 1
      | .ev _ => 0) + midCycle oc cfg w ord fill (k + 1) (s.step oc cfg w (ord k) (fill k) e) evs

end Ur20.Spec
