import Verif.Spec.Network

/-!
# Specification: power failures of a station with any number of serial devices

The coupler and the devices of `Spec.Network` with one more kind of step: the station loses power
and comes back, while the application goes on. All registers of the output image are then 0, no
device presents anything, and all count from new numbers.
-/

namespace Ur20.Spec

open Com

/-- One step of a schedule with power failures. -/
inductive StationEv where
  /-- a step of the coupler, the application or a device -/
  | ev (e : NEv)
  /-- the station loses power and comes back; the last number a device has taken over is then given
  by `ack`, the number before the one of the next segment it presents by `rxCnt` -/
  | power (ack rxCnt : Nat → Fin 4)

/-- The coupler and its devices, and for each module the number of the last segment shown to it in a
cycle after the two initialisation cycles, if any, since the application was started. -/
structure PowerNet where
  net : Net
  shown : Nat → Option Nat

namespace PowerNet

/-- The number shown last, after a step that leads to `n`. -/
def note (s : PowerNet) (n : Net) (j : Nat) : NEv → Option Nat
  | .crash => none
  | _ =>
    if n.cycles = s.net.cycles + 1 ∧ 2 < n.cycles ∧ (s.net.line j).avail = true then
      some (s.net.line j).rxCnt
    else s.shown j

/-- The effect of a power failure. -/
def powered (s : Net) (ack rxCnt : Nat → Fin 4) : Net :=
  { s with
    out := List.replicate s.out.length 0#16
    line := fun j => { s.line j with
      ack := ack j, rxCnt := rxCnt j, avail := false, rxData := [], fresh := true } }

/-- The effect of one step. -/
noncomputable def step (oc : Bool) (cfg : CouplerConfig) (w : Wiring) (s : PowerNet) :
    StationEv → PowerNet
  | .ev e => ⟨s.net.step oc cfg w e, fun j => s.note (s.net.step oc cfg w e) j e⟩
  | .power a r => ⟨powered s.net a r, s.shown⟩

/-- A whole schedule. -/
noncomputable def run (oc : Bool) (cfg : CouplerConfig) (w : Wiring) (s : PowerNet)
    (evs : List StationEv) : PowerNet := evs.foldl (step oc cfg w) s

/-- Whenever the power fails, no cycle is in progress. -/
def BetweenCycles (oc : Bool) (cfg : CouplerConfig) (w : Wiring) : PowerNet → List StationEv → Prop
  | _, [] => True
  | s, e :: evs => (match e with
      | .power _ _ => s.net.pending = none
      | .ev _ => True) ∧ BetweenCycles oc cfg w (s.step oc cfg w e) evs

/-- After every power failure the first segment presented to module `j` has another number than the
last one shown before. -/
def NewNumbers (oc : Bool) (cfg : CouplerConfig) (w : Wiring) (j : Nat) :
    PowerNet → List StationEv → Prop
  | _, [] => True
  | s, e :: evs => (match e with
      | .power _ r => s.shown j ≠ some (((r j).val + 1) % 4)
      | .ev _ => True) ∧ NewNumbers oc cfg w j (s.step oc cfg w e) evs

end PowerNet

/-- The application does not crash. -/
def KeepsGoing (evs : List StationEv) : Prop := ∀ e ∈ evs, e ≠ .ev .crash

/-- Only values the modules accept are written to modules that are not serial. -/
def AcceptedValuesP (cfg : CouplerConfig) (evs : List StationEv) : Prop :=
  ∀ a v, StationEv.ev (.other (.setOutput a v)) ∈ evs → ∀ t, cfg.modules[a.module]? = some t →
    Accepts t v

end Ur20.Spec
