import Verif.Spec.Unreliable

/-!
# Specification: power failures of the station

The system of `Spec.Unreliable` with one more kind of step: the station loses power and comes back,
while the application goes on. Its output image is cleared, nothing is presented any more, and the
segments are counted from new numbers.
-/

namespace Ur20.Spec

open Com

/-- One step of a schedule with power failures. -/
inductive PowerEv where
  /-- a step of the system with lost transfers and crashes of the application -/
  | ev (e : UEv)
  /-- the station loses power and comes back; the last number taken over is then `ack`, the number
  before the one of the next segment presented is `rxCnt` -/
  | power (ack rxCnt : Fin 4)

/-- The system, and the number of the last segment the device has shown to the processor in a cycle
after the two initialisation cycles, if any, since the application was started. -/
structure PowerSys where
  sys : Sys
  shown : Option Nat

namespace PowerSys

/-- The image of a station that has just been switched on. -/
def blank : RsOut := ⟨false, false, false, 0, 0, false, []⟩

/-- The number shown last, after a step. -/
def note (s : PowerSys) : UEv → Option Nat
  | .ev (.start _ _) =>
    if s.sys.pending = none ∧ 2 ≤ s.sys.cycles ∧ s.sys.avail = true then some s.sys.rxCnt
    else s.shown
  | .crash => none
  | _ => s.shown

/-- The effect of one step. -/
def step (len : ProcessDataLength) (s : PowerSys) : PowerEv → PowerSys
  | .ev e => ⟨s.sys.ustep len e, s.note e⟩
  | .power a r =>
    ⟨{ s.sys with out := blank, ack := a, rxCnt := r, avail := false, rxData := [], fresh := true },
      s.shown⟩

/-- A whole schedule. -/
def run (len : ProcessDataLength) (s : PowerSys) (evs : List PowerEv) : PowerSys := evs.foldl (step len) s

/-- Whenever the power fails, no cycle is in progress. -/
def BetweenCycles (len : ProcessDataLength) : PowerSys → List PowerEv → Prop
  | _, [] => True
  | s, .power a r :: evs => s.sys.pending = none ∧ BetweenCycles len (s.step len (.power a r)) evs
  | s, .ev e :: evs => BetweenCycles len (s.step len (.ev e)) evs

/-- After every power failure the first segment presented has another number than the last one
shown before. -/
def NewNumbers (len : ProcessDataLength) : PowerSys → List PowerEv → Prop
  | _, [] => True
  | s, .power a r :: evs =>
    s.shown ≠ some ((r.val + 1) % 4) ∧ NewNumbers len (s.step len (.power a r)) evs
  | s, .ev e :: evs => NewNumbers len (s.step len (.ev e)) evs

end PowerSys

/-- The application does not crash. -/
def KeepsRunning (evs : List PowerEv) : Prop := ∀ e ∈ evs, e ≠ .ev .crash

end Ur20.Spec
