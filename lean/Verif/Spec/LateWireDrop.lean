import Verif.Spec.LateWire
import Verif.Spec.Histories

/-!
# Specification: an output wired to an input, with late and lost images, failing cycles and restarts

The two stations of `Spec/LateWire.lean`. Here cycles of both applications may fail for any reason, and the
second application may be restarted, too.
-/

namespace Ur20.Spec

/-- One step of the schedule. -/
inductive WireDropEv where
  /-- a step of `Spec/LateWire.lean` -/
  | ev (e : LateWireEv)
  /-- the second application restarts with a new coupler; the images on the way to it are lost -/
  | restart

namespace LateWire

open Classical in
/-- The effect of one step; `d` is a new coupler of the second application.
If a cycle of the first application returns an error although both its images can be decoded then no image
will stand for the calls made since its last successful cycle: from there on `calls` is without them.
If a cycle of the second application returns an error then it has used its image of the inputs if that can
be decoded. -/
noncomputable def dstep (oc : Bool) (cfg cfg' : CouplerConfig) (wired : List Word → List Word → Bool)
    (d : Coupler) (s : LateWire) : WireDropEv → LateWire
  | .ev (.first (.failing pi po)) =>
    { s with a := { s.a.step oc (.failing pi po) with
      calls := if Decodable cfg pi po ∧ ∃ e, (s.a.c.next oc pi po).2 = .err e then s.a.kept.1
        else s.a.calls } }
  | .ev (.cycle po) => match s.inp with
    | some x => match s.d.next oc x.pi po with
      | (d', .ok _) => { s with d := d', seen := some x }
      | (d', .err _) => { s with d := d', seen := if InputsPresent cfg' x.pi then some x else s.seen }
      | _ => s
    | none => s
  | .ev e => s.step oc wired e
  | .restart => { s with d := d, ins := [], inp := none, seen := none }

/-- A whole schedule. -/
noncomputable def drun (oc : Bool) (cfg cfg' : CouplerConfig) (wired : List Word → List Word → Bool)
    (d : Coupler) (s : LateWire) (evs : List WireDropEv) : LateWire :=
  evs.foldl (dstep oc cfg cfg' wired d) s

/-- When the first application restarts it makes a new coupler with the same configuration, and without
overflow checks the output images of its cycles that cannot be decoded have at most 63488 registers. -/
def Sound (oc : Bool) (cfg : CouplerConfig) : WireDropEv → Prop
  | .ev (.first (.failing pi po)) => ¬ Decodable cfg pi po → oc = false → po.length ≤ 0xF800
  | .ev (.first (.restart c)) => Coupler.new cfg = .ok c
  | _ => True

end LateWire

end Ur20.Spec
