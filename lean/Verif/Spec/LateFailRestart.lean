import Verif.Spec.LateFail
import Verif.Spec.LateRestart

/-!
# Specification: failing cycles and restarts with late and lost images

The schedules of `Spec/LateFail.lean`, from the states in which an application starts or restarts
(`Spec/LateRestart.lean`, `Spec/LateNet.lean`).
-/

namespace Ur20.Spec

open Com

/-- Runs of the application with a restart after each of them: what was written and what the device has
taken over in each. -/
def Late.fsessions (len : ProcessDataLength) : Late → List (List LateFailEv × Bool × Bool) →
    List (List Byte × List Byte)
  | _, [] => []
  | s, (evs, flags) :: rest => ((s.frun evs).written, (s.frun evs).received) ::
      fsessions len ((s.frun evs).restart len flags) rest

namespace LatePlant

/-- Runs of the application with a restart after each of them: what was written and what the device has
taken over in each. -/
noncomputable def fsessions (oc : Bool) (cfg : CouplerConfig) (j : Nat) (len : ProcessDataLength)
    (oi oo : Word) (c : Coupler) :
    LatePlant → List (List LatePlantFailEv × List Word) → List (List Byte × List Byte)
  | _, [] => []
  | s, (evs, pi) :: rest =>
    ((s.frun oc cfg j len oi oo evs).written, (s.frun oc cfg j len oi oo evs).received) ::
      fsessions oc cfg j len oi oo c ((s.frun oc cfg j len oi oo evs).restart c pi) rest

/-- The images of the inputs read after the restarts carry the frame of the device, and cycles with other
images than those the application has fail because these cannot be decoded. -/
def GoodFailSessions (oc : Bool) (cfg : CouplerConfig) (j : Nat) (len : ProcessDataLength)
    (oi oo : Word) (c : Coupler) : LatePlant → List (List LatePlantFailEv × List Word) → Prop
  | _, [] => True
  | s, (evs, pi) :: rest => OnlyUndecodable oc cfg (LatePlantFailEv.others evs) ∧
      (∃ f, inFrame len oi pi = some f ∧ (s.frun oc cfg j len oi oo evs).Presents f) ∧
      GoodFailSessions oc cfg j len oi oo c ((s.frun oc cfg j len oi oo evs).restart c pi) rest

end LatePlant

namespace LateNet

/-- Runs of the application with a restart after each of them: what was written to module `j` and what
its device has taken over in each. -/
noncomputable def fsessions (oc : Bool) (cfg : CouplerConfig) (w : Wiring) (c : Coupler) (j : Nat) :
    LateNet → List (List LateNetFailEv × List Word) → List (List Byte × List Byte)
  | _, [] => []
  | s, (evs, pi) :: rest =>
    (((s.frun oc cfg w evs).line j).written, ((s.frun oc cfg w evs).line j).received) ::
      fsessions oc cfg w c j ((s.frun oc cfg w evs).restart c pi) rest

/-- The images of the inputs read after the restarts carry the frames of all devices, and cycles with
other images than those the application has fail because these cannot be decoded. -/
def GoodFailSessions (oc : Bool) (cfg : CouplerConfig) (w : Wiring) (c : Coupler) :
    LateNet → List (List LateNetFailEv × List Word) → Prop
  | _, [] => True
  | s, (evs, pi) :: rest => OnlyUndecodable oc cfg (LateNetFailEv.others evs) ∧
      (s.frun oc cfg w evs).Shows w pi ∧
      GoodFailSessions oc cfg w c ((s.frun oc cfg w evs).restart c pi) rest

end LateNet

end Ur20.Spec
