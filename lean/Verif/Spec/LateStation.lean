import Verif.Spec.LateNet

/-!
# Specification: the values of all outputs next to serial devices, with late and lost images

The system of `Spec/LateNet.lean`, with restarts of the application as steps of the schedule. Every image
of the outputs is recorded together with the calls that were made before its cycle, as in
`Spec/LateOutputs.lean`. The application can also set values on the channels of the connected serial
modules; what that sends is the subject of `Spec/LateSend.lean`.
-/

namespace Ur20.Spec

/-- For the images of the outputs: the calls made before the cycle each of them comes from. -/
structure Stamps where
  /-- the calls made so far, without those of which nothing has arrived before a restart -/
  calls : List COp
  /-- of the image the last cycle returned -/
  kept : List COp
  /-- of the images on their way to the station, oldest first -/
  outs : List (List COp)
  /-- of the image the station has -/
  out : List COp

namespace Stamps

/-- No calls. -/
def start : Stamps := ⟨[], [], [], []⟩

/-- What a step changes; `done` tells whether it is a successful cycle. -/
def step (w : Wiring) (done : Bool) (t : Stamps) : LateNetEv → Stamps
  | .write j buf => if j ∈ w.modules then { t with calls := t.calls ++ [.write j buf] } else t
  | .read j n => if j ∈ w.modules then { t with calls := t.calls ++ [.read j n] } else t
  | .other op =>
    if ∀ j ∈ w.modules, op.Elsewhere j then { t with calls := t.calls ++ [op] } else t
  | .cycle => if done then { t with kept := t.calls, outs := t.outs ++ [t.calls] } else t
  | .again => { t with outs := t.outs ++ [t.kept] }
  | .deliver => match t.outs with
    | o :: outs => { t with out := o, outs := outs }
    | [] => t
  | .loseOut n => { t with outs := t.outs.eraseIdx n }
  | _ => t

/-- A call. -/
def call (op : COp) (t : Stamps) : Stamps := { t with calls := t.calls ++ [op] }

/-- At a restart what is on the way is lost. -/
def restart (t : Stamps) : Stamps := ⟨t.out, t.out, [], t.out⟩

end Stamps

/-- A coupler, the images and the devices, and the calls the images stand for. -/
structure LateStation where
  net : LateNet
  stamps : Stamps

/-- One step of the schedule. -/
inductive LateStationEv where
  /-- a step without a restart -/
  | ev (e : LateNetEv)
  /-- `set_output` on the channel of a connected serial module -/
  | set (j : Nat) (v : ChannelValue)
  /-- the application restarts with a new coupler and reads the images; that of the inputs is `pi` -/
  | restart (pi : List Word)

namespace LateStation

/-- The application has just started. -/
def start (s : LateNet) : LateStation := ⟨s, .start⟩

/-- The effect of one step; `c` is a new coupler. -/
def step (oc : Bool) (w : Wiring) (c : Coupler) (s : LateStation) : LateStationEv → LateStation
  | .ev e =>
    ⟨s.net.step oc w e, s.stamps.step w (decide ((s.net.step oc w e).cycles ≠ s.net.cycles)) e⟩
  | .set j v =>
    if j ∈ w.modules then
      ⟨{ s.net with c := (s.net.c.setOutput ⟨j, 0⟩ v).1 }, s.stamps.call (.setOutput ⟨j, 0⟩ v)⟩
    else s
  | .restart pi => ⟨s.net.restart c pi, s.stamps.restart⟩

/-- A whole schedule. -/
def run (oc : Bool) (w : Wiring) (c : Coupler) (s : LateStation) (evs : List LateStationEv) :
    LateStation := evs.foldl (step oc w c) s

/-- If a cycle of the schedule fails then because its images cannot be decoded. (Without overflow checks
the output images that cannot be decoded have at most 63488 registers.) -/
def OnlyUndecodable (oc : Bool) (cfg : CouplerConfig) (evs : List LateStationEv) : Prop :=
  ∀ pi po, .ev (.failing pi po) ∈ evs → ¬ Decodable cfg pi po ∧ (oc = false → po.length ≤ 0xF800)

/-- Only values the modules accept are set on modules that are not connected to a device. -/
def AcceptedValues (cfg : CouplerConfig) (evs : List LateStationEv) : Prop :=
  ∀ a v, .ev (.other (.setOutput a v)) ∈ evs → ∀ t, cfg.modules[a.module]? = some t → Accepts t v

/-- A round without losses and delays: the image of the inputs arrives, a cycle, and its image
arrives. -/
def round (pi : List Word) : List LateStationEv := [.ev (.sample pi), .ev .arrive, .ev .cycle, .ev .deliver]

end LateStation

end Ur20.Spec
