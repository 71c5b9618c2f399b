import Verif.Spec.Station

/-!
# Specification: sending with `set_output`

The coupler and the serial device of `Spec.Station` with one more kind of step: the application sets
a value on the channel of the serial module itself. Bytes that are set count as written when a cycle
decodes its images, after everything given to the writer before; until then a later value replaces
them and a restart drops them. Values of other kinds are taken by the cycle and send nothing.
-/

namespace Ur20.Spec

open Com

/-- One step of a schedule. -/
inductive SPEv where
  /-- a step of the unreliable plant -/
  | ev (e : UPEv)
  /-- `set_output` on the channel of the serial module -/
  | set (v : ChannelValue)

/-- The plant, and the value set on the serial module that no cycle has taken yet. -/
structure Sending where
  plant : Plant
  waiting : Option ChannelValue

/-- The bytes a value sends. -/
def sentBytes : Option ChannelValue → List Byte
  | some (.bytes data) => data
  | _ => []

namespace Sending

/-- The effect of one step. A cycle that decodes its images is counted in `cycles`, and takes the
waiting value. -/
noncomputable def step (oc : Bool) (cfg : CouplerConfig) (j : Nat) (len : ProcessDataLength)
    (oi oo : Word) (s : Sending) : SPEv → Sending
  | .set v => ⟨{ s.plant with c := (s.plant.c.setOutput ⟨j, 0⟩ v).1 }, some v⟩
  | .ev .crash => ⟨s.plant.ustep oc cfg j len oi oo .crash, none⟩
  | .ev e =>
    let p := s.plant.ustep oc cfg j len oi oo e
    if p.cycles = s.plant.cycles + 1 then
      ⟨{ p with written := p.written ++ sentBytes s.waiting }, none⟩
    else ⟨p, s.waiting⟩

/-- A whole schedule. -/
noncomputable def run (oc : Bool) (cfg : CouplerConfig) (j : Nat) (len : ProcessDataLength)
    (oi oo : Word) (s : Sending) (evs : List SPEv) : Sending :=
  evs.foldl (step oc cfg j len oi oo) s

/-- Nothing is lost and there is no crash; if a cycle fails then because its images cannot be
decoded. -/
def OnlyUndecodable (oc : Bool) (cfg : CouplerConfig) (j : Nat) (len : ProcessDataLength)
    (oi oo : Word) : Sending → List SPEv → Prop
  | _, [] => True
  | s, e :: evs => (match e with
      | .set _ => True
      | .ev (.ev _) => True
      | .ev (.failing pi) => ¬ Decodable cfg pi s.plant.out
      | .ev .lost => False
      | .ev .crash => False) ∧
    OnlyUndecodable oc cfg j len oi oo (s.step oc cfg j len oi oo e) evs

end Sending

/-- A schedule without crashes. -/
def NoCrashesS (evs : List SPEv) : Prop := ∀ e ∈ evs, e ≠ .ev .crash

/-- Only values the modules accept are written to other modules. -/
def AcceptedValuesS (cfg : CouplerConfig) (evs : List SPEv) : Prop :=
  ∀ a v, SPEv.ev (.ev (.other (.setOutput a v))) ∈ evs → ∀ t, cfg.modules[a.module]? = some t →
    Accepts t v

end Ur20.Spec
