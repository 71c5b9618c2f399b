import Verif.Spec.Restarts

/-!
# Specification: outputs and power failures of the station

The loop of `Spec/Restarts.lean` with power failures of the station: it comes back with all registers
of its output image at zero, and the application goes on with its coupler.
-/

namespace Ur20.Spec

/-- A round of the loop, a crash of the application, or a power failure of the station. -/
inductive OutageEv where
  | round (r : Transfer)
  | crash (lost : List COp)
  | power

/-- The image of a station that has just come up. -/
def allOff (img : List Word) : List Word := List.replicate img.length 0#16

/-- The loop from a coupler and the image the device has on. -/
def outages (oc : Bool) (cfg : CouplerConfig) (c : Coupler) (device : List Word) :
    List OutageEv → Option (Coupler × List Word)
  | [] => some (c, device)
  | .round r :: evs =>
    match (runC oc c r.calls).next oc r.input device with
    | (c', .ok img) => outages oc cfg c' (if r.arrives then img else device) evs
    | _ => none
  | .crash _ :: evs =>
    match Coupler.new cfg with
    | .ok c' => outages oc cfg c' device evs
    | _ => none
  | .power :: evs => outages oc cfg c (allOff device) evs

/-- The rounds whose image arrived after the last power failure, with those of `acc` before. -/
def arrivedSince (acc : List Transfer) : List OutageEv → List Transfer
  | [] => acc
  | .round r :: evs => arrivedSince (if r.arrives then acc ++ [r] else acc) evs
  | .crash _ :: evs => arrivedSince acc evs
  | .power :: evs => arrivedSince [] evs

/-- Output channel `ch` of a module of type `t` with process output data at bit `pos` is off: the bit
of a digital channel is clear, the register of an analog channel is zero, a counter channel has no
preset and no command. -/
def ChannelOff (t : ModuleType) (img : List Word) (pos ch : Nat) : Prop :=
  match t with
  | .UR20_4DO_P | .UR20_4DO_P_2A | .UR20_8DO_P | .UR20_16DO_P | .UR20_4RO_CO_255 =>
    bitAt img (pos + ch) = some false
  | .UR20_4AO_UI_16 | .UR20_4AO_UI_16_DIAG => img[pos / 16 + ch]? = some 0#16
  | .UR20_2FCNT_100 => CounterPreset img (pos / 16) ch 0 0#16
  | _ => False

end Ur20.Spec
