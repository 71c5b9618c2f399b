import Verif.Spec.LateSource
import Verif.Spec.LateStation

/-!
# Specification: the system of `Spec/LateStation.lean` with a coupler of the translated source
-/

namespace Ur20.Spec

open Ur20.Src

/-- A coupler of the translated source, the images and the devices, and the calls the images stand
for. -/
structure Src.LateStation where
  net : Src.LateNet
  stamps : Stamps

namespace Src.LateStation

/-- The application has just started. -/
def start (s : Src.LateNet) : Src.LateStation := ⟨s, .start⟩

/-- The effect of one step; `c` is a new coupler. -/
noncomputable def step (oc : Bool) (w : Wiring) (ord : Imp.Orders) (fill : Nat → Byte)
    (c : ur20_fbc_mod_tcp.Coupler) (s : Src.LateStation) : LateStationEv → Src.LateStation
  | .ev e =>
    ⟨s.net.step oc w ord fill e,
      s.stamps.step w (decide ((s.net.step oc w ord fill e).cycles ≠ s.net.cycles)) e⟩
  | .set j v =>
    if j ∈ w.modules then
      ⟨{ s.net with c := (Src.call oc s.net.c ord fill (.setOutput ⟨j, 0⟩ v)).1 },
        s.stamps.call (.setOutput ⟨j, 0⟩ v)⟩
    else s
  | .restart pi => ⟨s.net.restart c pi, s.stamps.restart⟩

/-- A whole schedule; step number `k` uses `ord k` and `fill k`. -/
noncomputable def run (oc : Bool) (w : Wiring) (ord : Nat → Imp.Orders) (fill : Nat → Nat → Byte)
    (c : ur20_fbc_mod_tcp.Coupler) : Nat → Src.LateStation → List LateStationEv → Src.LateStation
  | _, s, [] => s
  | k, s, e :: evs => run oc w ord fill c (k + 1) (s.step oc w (ord k) (fill k) c e) evs

end Src.LateStation

end Ur20.Spec
