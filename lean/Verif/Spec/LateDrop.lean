import Verif.Spec.LateStation

/-!
# Specification: the values of all outputs with failing cycles and late and lost images

The system of `Spec/LateStation.lean`, in which cycles may also fail because a value cannot be encoded.
Such a cycle has taken the values set before it, and they are discarded.
-/

namespace Ur20.Spec.LateStation

open Classical in
/-- The effect of one step; `c` is a new coupler. If a cycle returns an error although both its images can
be decoded then no image will stand for the calls made since the last successful cycle: from there on
`calls` is without them. -/
noncomputable def fstep (oc : Bool) (cfg : CouplerConfig) (w : Wiring) (c : Coupler) (s : LateStation) :
    LateStationEv → LateStation
  | .ev (.failing pi po) =>
    ⟨s.net.step oc w (.failing pi po),
      if Decodable cfg pi po ∧ ∃ e, (s.net.c.next oc pi po).2 = .err e then
        { s.stamps with calls := s.stamps.kept }
      else s.stamps⟩
  | e => s.step oc w c e

/-- A whole schedule. -/
noncomputable def frun (oc : Bool) (cfg : CouplerConfig) (w : Wiring) (c : Coupler) (s : LateStation)
    (evs : List LateStationEv) : LateStation := evs.foldl (fstep oc cfg w c) s

/-- Without overflow checks the output images that cannot be decoded have at most 63488 registers. -/
def SmallImages (oc : Bool) (cfg : CouplerConfig) (evs : List LateStationEv) : Prop :=
  ∀ pi po, .ev (.failing pi po) ∈ evs → ¬ Decodable cfg pi po → oc = false → po.length ≤ 0xF800

end Ur20.Spec.LateStation
