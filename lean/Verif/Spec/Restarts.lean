import Verif.Spec.Transfers

/-!
# Specification: output values when the application is restarted

The loop of `Spec/Transfers.lean` with the output image read back from the device, interrupted by
crashes: the application starts again with a new coupler of the same configuration. The device keeps
its outputs meanwhile.
-/

namespace Ur20.Spec

/-- A round of the loop, or a crash. The calls the application made since the last round, among them
cycles that failed or whose image was not sent any more, are lost with it. -/
inductive REv where
  | round (r : Transfer)
  | crash (lost : List COp)

/-- The loop from a coupler and the image the device has on. -/
def restarts (oc : Bool) (cfg : CouplerConfig) (c : Coupler) (device : List Word) :
    List REv → Option (Coupler × List Word)
  | [] => some (c, device)
  | .round r :: evs =>
    match (runC oc c r.calls).next oc r.input device with
    | (c', .ok img) => restarts oc cfg c' (if r.arrives then img else device) evs
    | _ => none
  | .crash _ :: evs =>
    match Coupler.new cfg with
    | .ok c' => restarts oc cfg c' device evs
    | _ => none

/-- The rounds whose image arrived. -/
def sentRounds : List REv → List Transfer
  | [] => []
  | .round r :: evs => if r.arrives then r :: sentRounds evs else sentRounds evs
  | .crash _ :: evs => sentRounds evs

end Ur20.Spec
