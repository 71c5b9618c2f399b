import Verif.Spec.LateDrop
import Verif.Spec.Channels
import Verif.Spec.Failure

/-!
# Specification: what the application sees of the station with failing cycles and late and lost images

The system of `Spec/LateDrop.lean`, in which the images of the inputs are numbered and the images the last
cycle has used are recorded.
-/

namespace Ur20.Spec

/-- `inputs()` shows, for every module that is not serial, the values of the image `pi`. -/
def ShowsInputs (cfg : CouplerConfig) (ins : List (List ChannelValue)) (pi : List Word) : Prop :=
  ∀ (j : Nat) (t : ModuleType) (par : List Word) (o i : Word), ConfiguredAt cfg j t par o i →
    t ≠ .UR20_1COM_232_485_422 →
    (i = noOffset → ∃ vs, ins[j]? = some vs ∧ ∀ v ∈ vs, v = .none) ∧
    (i ≠ noOffset → i.toNat % 16 = 0 ∨ inputBytes t par = 1 →
      ∃ vs, ins[j]? = some vs ∧ vs.length = inputChannels t ∧
        ∀ ch, ch < inputChannels t → ∃ v, vs[ch]? = some v ∧ InputShown t par pi i.toNat ch v)

/-- `outputs()` shows, for every module that is not serial, the values of the image `po`. -/
def ShowsOutputs (cfg : CouplerConfig) (outs : List (List ChannelValue)) (po : List Word) : Prop :=
  ∀ (j : Nat) (t : ModuleType) (par : List Word) (o i : Word), ConfiguredAt cfg j t par o i →
    t ≠ .UR20_1COM_232_485_422 →
    (o = noOffset → ∃ vs, outs[j]? = some vs ∧ ∀ v ∈ vs, v = .none) ∧
    (o ≠ noOffset → o.toNat % 16 = 0 ∨ outputBytes t par = 1 →
      ∃ vs, outs[j]? = some vs ∧ vs.length = outputChannels t ∧
        ∀ ch, ch < outputChannels t → ∃ v, vs[ch]? = some v ∧ OutputShown t par po (outBit o) ch v)

/-- The images of the inputs and what was done with them. -/
structure SeenImages where
  /-- all images of the inputs: the one at the start, those the station has sent and those read at a
  restart -/
  samples : List (List Word)
  /-- the numbers of the images on their way to the application, oldest first -/
  ins : List Nat
  /-- the number of the image the application has -/
  inp : Nat
  /-- the last image of the inputs a cycle since the last restart could decode -/
  lastIn : Option (List Word)
  /-- the last image of the outputs such a cycle could decode -/
  lastOut : Option (List Word)

namespace SeenImages

/-- The application has just read the image `pi`. -/
def start (pi : List Word) : SeenImages := ⟨[pi], [], 0, none, none⟩

open Classical in
/-- What a step in the state `s` changes. -/
noncomputable def step (oc : Bool) (cfg : CouplerConfig) (w : Wiring) (s : LateNet) (t : SeenImages) :
    LateStationEv → SeenImages
  | .ev (.sample pi) =>
    if s.Shows w pi then { t with samples := t.samples ++ [pi], ins := t.ins ++ [t.samples.length] }
    else t
  | .ev .arrive => match t.ins with
    | n :: ins => { t with inp := n, ins := ins }
    | [] => t
  | .ev (.loseIn n) => { t with ins := t.ins.eraseIdx n }
  | .ev .cycle => match (s.c.next oc s.inp s.kept).2 with
    | .ok _ => { t with lastIn := some s.inp, lastOut := some s.kept }
    | _ => t
  | .ev (.failing pi po) => match (s.c.next oc pi po).2 with
    | .err _ =>
      { t with
        lastIn := if InputsPresent cfg pi then some pi else t.lastIn
        lastOut := if Decodable cfg pi po then some po else t.lastOut }
    | _ => t
  | .restart pi => ⟨t.samples ++ [pi], [], t.samples.length, none, none⟩
  | _ => t

end SeenImages

/-- The system and the images. -/
structure LateShown where
  station : LateStation
  seen : SeenImages

namespace LateShown

/-- The application has just started. -/
def start (s : LateNet) : LateShown := ⟨.start s, .start s.inp⟩

/-- The effect of one step; `c` is a new coupler. -/
noncomputable def step (oc : Bool) (cfg : CouplerConfig) (w : Wiring) (c : Coupler) (s : LateShown)
    (e : LateStationEv) : LateShown :=
  ⟨s.station.fstep oc cfg w c e, s.seen.step oc cfg w s.station.net e⟩

/-- A whole schedule. -/
noncomputable def run (oc : Bool) (cfg : CouplerConfig) (w : Wiring) (c : Coupler) (s : LateShown)
    (evs : List LateStationEv) : LateShown := evs.foldl (step oc cfg w c) s

end LateShown

end Ur20.Spec
