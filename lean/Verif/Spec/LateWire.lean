import Verif.Spec.LateOutputs
import Verif.Spec.Wiring
import Verif.Spec.Settle

/-!
# Specification: an output wired to an input, with late and lost images

The images that the first application sends to its device are late or get lost as in
`Spec/LateOutputs.lean`. An output of this device is wired to an input of a second one. The images of
the inputs that the second device sends to the second application are on the way for any time, too, and
may get lost, but do not overtake each other. Every image of the inputs is recorded together with the
image the first device had when it was taken.
-/

namespace Ur20.Spec

/-- The module types with digital outputs and relays. -/
def DigitalOutput (t : ModuleType) : Prop :=
  t = .UR20_4DO_P ∨ t = .UR20_4DO_P_2A ∨ t = .UR20_8DO_P ∨ t = .UR20_16DO_P ∨ t = .UR20_4RO_CO_255

/-- An image of the inputs of the second device. -/
structure Sampled where
  /-- the calls made before the cycle from which the first device had its image -/
  calls : List COp
  /-- the image the first device had -/
  out : List Word
  /-- the image of the inputs -/
  pi : List Word

/-- The two stations. -/
structure LateWire where
  /-- the first application, its connection and its device -/
  a : LateOut
  /-- the coupler of the second application -/
  d : Coupler
  /-- images of the inputs on their way to the second application, oldest first -/
  ins : List Sampled
  /-- the image of the inputs the second application has -/
  inp : Option Sampled
  /-- the image of the inputs used by the last successful cycle of the second application -/
  seen : Option Sampled

/-- One step of the schedule. -/
inductive LateWireEv where
  /-- a step of the first application, its connection or its device -/
  | first (e : LateOutEv)
  /-- a call of the second application that is not a cycle -/
  | call (op : COp)
  /-- the second device sends this image of its inputs -/
  | sample (pi : List Word)
  /-- the oldest image of the inputs that is on the way arrives -/
  | arrive
  /-- the `n`-th image of the inputs on the way is lost -/
  | lose (n : Nat)
  /-- a cycle of the second application, with this image of the outputs -/
  | cycle (po : List Word)

namespace LateWire

/-- The effect of one step; steps that are not enabled have no effect. `wired` says which images of the
inputs of the second device are possible when the first device has an image. -/
def step (oc : Bool) (wired : List Word → List Word → Bool) (s : LateWire) : LateWireEv → LateWire
  | .first e => { s with a := s.a.step oc e }
  | .call op => match op with
    | .next _ _ => s
    | op => { s with d := op.apply oc s.d }
  | .sample pi =>
    if wired s.a.out.2 pi then { s with ins := s.ins ++ [⟨s.a.out.1, s.a.out.2, pi⟩] } else s
  | .arrive => match s.ins with
    | x :: ins => { s with inp := some x, ins := ins }
    | [] => s
  | .lose n => { s with ins := s.ins.eraseIdx n }
  | .cycle po => match s.inp with
    | some x => match s.d.next oc x.pi po with
      | (d', .ok _) => { s with d := d', seen := some x }
      | _ => s
    | none => s

/-- A whole schedule. -/
def run (oc : Bool) (wired : List Word → List Word → Bool) (s : LateWire) (evs : List LateWireEv) :
    LateWire := evs.foldl (step oc wired) s

/-- Two new couplers; the first application has just read the image of its device. -/
def start (c d : Coupler) (img : List Word) : LateWire := ⟨LateOut.start c img, d, [], none, none⟩

/-- If a cycle of the first application fails then because its images cannot be decoded, and when it
restarts it makes a new coupler with the same configuration. -/
def Admissible (oc : Bool) (cfg : CouplerConfig) : LateWireEv → Prop
  | .first e => LateOut.Admissible oc cfg e
  | _ => True

/-- The bit of an output is the bit of an input. -/
def bitWire (outPos inPos : Nat) (out pi : List Word) : Bool := bitAt pi inPos == bitAt out outPos

end LateWire

end Ur20.Spec
