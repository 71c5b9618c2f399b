import Verif.Spec.LateNet
import Verif.Spec.Sending

/-!
# Specification: sending with `set_output` to any number of devices, with late and lost images

The system of `Spec/LateNet.lean` with one more kind of step: the application sets a value on the channel
of a connected serial module. Bytes that are set count as written when the next cycle succeeds, after
everything given to the writer before; until then a later value replaces them and a restart drops them.
Values of other kinds are taken by the cycle and send nothing.
-/

namespace Ur20.Spec

/-- One step of the schedule. -/
inductive LateSendEv where
  /-- a step of `Spec/LateNet.lean` -/
  | ev (e : LateNetEv)
  /-- `set_output` on the channel of a connected serial module -/
  | set (j : Nat) (v : ChannelValue)

/-- The system, and for every module the value set on it that no cycle has taken yet. -/
structure LateSend where
  net : LateNet
  pend : Nat → Option ChannelValue

namespace LateSend

/-- No value is set. -/
def start (s : LateNet) : LateSend := ⟨s, fun _ => none⟩

/-- The values that are set count as written. -/
def taken (pend : Nat → Option ChannelValue) (n : LateNet) : LateNet :=
  { n with line := fun j =>
    { n.line j with written := (n.line j).written ++ sentBytes (pend j) } }

/-- The effect of one step. A cycle that succeeds is counted in `cycles`, and takes the values. -/
def step (oc : Bool) (w : Wiring) (s : LateSend) : LateSendEv → LateSend
  | .set j v =>
    if j ∈ w.modules then
      ⟨{ s.net with c := (s.net.c.setOutput ⟨j, 0⟩ v).1 }, fun i => if i = j then some v else s.pend i⟩
    else s
  | .ev e =>
    if (s.net.step oc w e).cycles = s.net.cycles then ⟨s.net.step oc w e, s.pend⟩
    else start (taken s.pend (s.net.step oc w e))

/-- A whole schedule. -/
def run (oc : Bool) (w : Wiring) (s : LateSend) (evs : List LateSendEv) : LateSend :=
  evs.foldl (step oc w) s

/-- If a cycle of the schedule fails then because its images cannot be decoded. (Without overflow checks
the output images that cannot be decoded have at most 63488 registers.) -/
def OnlyUndecodable (oc : Bool) (cfg : CouplerConfig) (evs : List LateSendEv) : Prop :=
  ∀ pi po, .ev (.failing pi po) ∈ evs → ¬ Decodable cfg pi po ∧ (oc = false → po.length ≤ 0xF800)

/-- Only values the modules accept are written to modules that are not connected to a device. -/
def AcceptedValues (cfg : CouplerConfig) (evs : List LateSendEv) : Prop :=
  ∀ a v, .ev (.other (.setOutput a v)) ∈ evs → ∀ t, cfg.modules[a.module]? = some t → Accepts t v

/-- A round without losses and delays: the image of the inputs arrives, a cycle, its image arrives, and
every device looks at it. -/
def round (oc : Bool) (w : Wiring) (s : LateSend) (pi : List Word) : LateSend :=
  s.run oc w
    (([.sample pi, .arrive, .cycle, .deliver] ++ w.modules.map .take : List LateNetEv).map .ev)

/-- Several rounds. -/
def rounds (oc : Bool) (w : Wiring) (s : LateSend) (pis : List (List Word)) : LateSend :=
  pis.foldl (round oc w) s

/-- The image of the inputs of each round is complete and carries the frames of all devices. -/
def GoodInputs (oc : Bool) (cfg : CouplerConfig) (w : Wiring) : LateSend → List (List Word) → Prop
  | _, [] => True
  | s, pi :: pis => InputsReady cfg pi ∧ s.net.Shows w pi ∧
    GoodInputs oc cfg w (s.round oc w pi) pis

/-- Runs of the application with a restart after each of them: what was written to module `j` and what
its device has taken over in each. -/
def sessions (oc : Bool) (w : Wiring) (c : Coupler) (j : Nat) :
    LateNet → List (List LateSendEv × List Word) → List (List Byte × List Byte)
  | _, [] => []
  | s, (evs, pi) :: rest =>
    ((((start s).run oc w evs).net.line j).written, (((start s).run oc w evs).net.line j).received) ::
      sessions oc w c j (((start s).run oc w evs).net.restart c pi) rest

/-- The images of the inputs read after the restarts carry the frames of all devices, and cycles that
fail do so because their images cannot be decoded. -/
def GoodSessions (oc : Bool) (cfg : CouplerConfig) (w : Wiring) (c : Coupler) :
    LateNet → List (List LateSendEv × List Word) → Prop
  | _, [] => True
  | s, (evs, pi) :: rest => OnlyUndecodable oc cfg evs ∧ ((start s).run oc w evs).net.Shows w pi ∧
      GoodSessions oc cfg w c (((start s).run oc w evs).net.restart c pi) rest

end LateSend

end Ur20.Spec
