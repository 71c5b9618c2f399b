import Verif.Spec.LostNet
import Verif.Spec.SourceNet

/-!
# Specification: which received bytes are lost in crashes
-/

namespace Ur20.Spec

/-- What was in the receive buffer of module `j` at each crash of a schedule. -/
noncomputable def Net.dropped (oc : Bool) (cfg : CouplerConfig) (w : Wiring) (j : Nat) :
    Net → List NEv → List (List Byte)
  | _, [] => []
  | s, e :: evs => (match e with
      | .crash => [s.buffered j]
      | _ => []) ++ dropped oc cfg w j (s.step oc cfg w e) evs

/-- The same for the translated source; step number `k` uses `ord k` and `fill k`. -/
noncomputable def Src.Net.dropped (oc : Bool) (cfg : CouplerConfig) (w : Wiring)
    (ord : Nat → Imp.Orders) (fill : Nat → Nat → Byte) (j : Nat) :
    Nat → Src.Net → List NEv → List (List Byte)
  | _, _, [] => []
  | k, s, e :: evs => (match e with
      | .crash => [s.buffered j]
      | _ => []) ++ dropped oc cfg w ord fill j (k + 1) (s.step oc cfg w (ord k) (fill k) e) evs

end Ur20.Spec
