import Verif.Spec.LateShown
import Verif.Spec.LateDropSource

/-!
# Specification: the system of `Spec/LateShown.lean` with a coupler of the translated source
-/

namespace Ur20.Spec

open Ur20.Src

open Classical in
/-- What a step in the state `s` changes. -/
noncomputable def SeenImages.srcStep (oc : Bool) (cfg : CouplerConfig) (w : Wiring) (ord : Imp.Orders)
    (fill : Nat → Byte) (s : Src.LateNet) (t : SeenImages) : LateStationEv → SeenImages
  | .ev (.sample pi) =>
    if s.Shows w pi then { t with samples := t.samples ++ [pi], ins := t.ins ++ [t.samples.length] }
    else t
  | .ev .arrive => match t.ins with
    | n :: ins => { t with inp := n, ins := ins }
    | [] => t
  | .ev (.loseIn n) => { t with ins := t.ins.eraseIdx n }
  | .ev .cycle => match (Src.call oc s.c ord fill (.next s.inp s.kept)).2 with
    | .next (.ok _) => { t with lastIn := some s.inp, lastOut := some s.kept }
    | _ => t
  | .ev (.failing pi po) => match (Src.call oc s.c ord fill (.next pi po)).2 with
    | .next (.err _) =>
      { t with
        lastIn := if InputsPresent cfg pi then some pi else t.lastIn
        lastOut := if Decodable cfg pi po then some po else t.lastOut }
    | _ => t
  | .restart pi => ⟨t.samples ++ [pi], [], t.samples.length, none, none⟩
  | _ => t

/-- The system and the images. -/
structure Src.LateShown where
  station : Src.LateStation
  seen : SeenImages

namespace Src.LateShown

/-- The application has just started. -/
def start (s : Src.LateNet) : Src.LateShown := ⟨.start s, .start s.inp⟩

/-- The effect of one step; `c` is a new coupler. -/
noncomputable def step (oc : Bool) (cfg : CouplerConfig) (w : Wiring) (ord : Imp.Orders)
    (fill : Nat → Byte) (c : ur20_fbc_mod_tcp.Coupler) (s : Src.LateShown) (e : LateStationEv) :
    Src.LateShown :=
  ⟨s.station.fstep oc cfg w ord fill c e, s.seen.srcStep oc cfg w ord fill s.station.net e⟩

/-- A whole schedule; step number `k` uses `ord k` and `fill k`. -/
noncomputable def run (oc : Bool) (cfg : CouplerConfig) (w : Wiring) (ord : Nat → Imp.Orders)
    (fill : Nat → Nat → Byte) (c : ur20_fbc_mod_tcp.Coupler) :
    Nat → Src.LateShown → List LateStationEv → Src.LateShown
  | _, s, [] => s
  | k, s, e :: evs => run oc cfg w ord fill c (k + 1) (s.step oc cfg w (ord k) (fill k) c e) evs

end Src.LateShown

end Ur20.Spec
