import Verif.Spec.LateDrop
import Verif.Spec.LateStationSource

/-!
# Specification: the system of `Spec/LateDrop.lean` with a coupler of the translated source
-/

namespace Ur20.Spec.Src.LateStation

open Ur20.Src

open Classical in
/-- The effect of one step; `c` is a new coupler. If a cycle returns an error although both its images can
be decoded then no image will stand for the calls made since the last successful cycle. -/
noncomputable def fstep (oc : Bool) (cfg : CouplerConfig) (w : Wiring) (ord : Imp.Orders)
    (fill : Nat → Byte) (c : ur20_fbc_mod_tcp.Coupler) (s : Src.LateStation) :
    LateStationEv → Src.LateStation
  | .ev (.failing pi po) =>
    ⟨s.net.step oc w ord fill (.failing pi po),
      if Decodable cfg pi po ∧ ∃ e, (Src.call oc s.net.c ord fill (.next pi po)).2 = .next (.err e) then
        { s.stamps with calls := s.stamps.kept }
      else s.stamps⟩
  | e => s.step oc w ord fill c e

/-- A whole schedule; step number `k` uses `ord k` and `fill k`. -/
noncomputable def frun (oc : Bool) (cfg : CouplerConfig) (w : Wiring) (ord : Nat → Imp.Orders)
    (fill : Nat → Nat → Byte) (c : ur20_fbc_mod_tcp.Coupler) :
    Nat → Src.LateStation → List LateStationEv → Src.LateStation
  | _, s, [] => s
  | k, s, e :: evs => frun oc cfg w ord fill c (k + 1) (s.fstep oc cfg w (ord k) (fill k) c e) evs

end Ur20.Spec.Src.LateStation
