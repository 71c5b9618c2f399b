import Verif.Spec.Histories
import Verif.Spec.Loop
import Verif.Spec.Unreliable

/-!
# Specification: a coupler with failing cycles, lost images and restarts

The coupler and the serial device of `Spec.Plant` with three more kinds of steps: a cycle that
returns an error, a returned image that never reaches the device, and a crash of the application,
which creates the coupler again from the same configuration.
-/

namespace Ur20.Spec

open Com

/-- One step of an unreliable schedule. -/
inductive UPEv where
  /-- a step of the reliable plant; cycles succeed -/
  | ev (e : PEv)
  /-- a cycle with this input image and the output image last transferred, which returns an error;
  the application goes on with the same coupler and the same output image -/
  | failing (pi : List Word)
  /-- the image returned by the last cycle is lost -/
  | lost
  /-- the application crashes and starts again; the device and the output image stay as they are -/
  | crash

namespace Plant

/-- The effect of a failing cycle that leads to the coupler `c'`. If the images could be decoded the
device has shown its frame. -/
def failed (s : Plant) (c' : Coupler) (decoded : Prop) [Decidable decoded] : Plant :=
  if decoded then
    if 2 < s.cycles + 1 ∧ s.avail = true ∧ s.fresh = true then
      { s with c := c', cycles := s.cycles + 1, seen := s.seen ++ s.rxData, fresh := false }
    else { s with c := c', cycles := s.cycles + 1 }
  else { s with c := c' }

open Classical in
/-- The effect of one step; steps that are not enabled have no effect. A failing cycle is enabled if
the input image carries the frame of the device or none that can be read. Without overflow checks
images of more than 63488 registers are left out. -/
noncomputable def ustep (oc : Bool) (cfg : CouplerConfig) (j : Nat) (len : ProcessDataLength)
    (oi oo : Word) (s : Plant) : UPEv → Plant
  | .ev e => s.step oc j len oi oo e
  | .failing pi => match s.pending, s.c.next oc pi s.out with
    | none, (c', .err _) =>
      if (∀ f, inFrame len oi pi = some f → s.Presents f) ∧
          (oc = false → s.out.length ≤ 0xF800) then
        s.failed c' (Decodable cfg pi s.out)
      else s
    | _, _ => s
  | .lost => { s with pending := none }
  | .crash => match Coupler.new cfg with
    | .ok c0 => { s with c := c0, cycles := 0, pending := none, fresh := true }
    | _ => s

/-- A whole schedule. -/
noncomputable def urun (oc : Bool) (cfg : CouplerConfig) (j : Nat) (len : ProcessDataLength)
    (oi oo : Word) (s : Plant) (evs : List UPEv) : Plant :=
  evs.foldl (ustep oc cfg j len oi oo) s

/-- Nothing is lost and there is no crash; if a cycle fails then because its images cannot be
decoded. -/
def OnlyUndecodable (oc : Bool) (cfg : CouplerConfig) (j : Nat) (len : ProcessDataLength)
    (oi oo : Word) : Plant → List UPEv → Prop
  | _, [] => True
  | s, .ev e :: evs => OnlyUndecodable oc cfg j len oi oo (s.step oc j len oi oo e) evs
  | s, .failing pi :: evs => ¬ Decodable cfg pi s.out ∧
    OnlyUndecodable oc cfg j len oi oo (s.ustep oc cfg j len oi oo (.failing pi)) evs
  | _, .lost :: _ => False
  | _, .crash :: _ => False

/-- A complete cycle followed by a look of the device at the image. -/
def round (oc : Bool) (j : Nat) (len : ProcessDataLength) (oi oo : Word) (s : Plant)
    (pi : List Word) : Plant := s.run oc j len oi oo [.start pi, .finish, .take]

/-- Several rounds. -/
def rounds (oc : Bool) (j : Nat) (len : ProcessDataLength) (oi oo : Word) (s : Plant)
    (pis : List (List Word)) : Plant := pis.foldl (round oc j len oi oo) s

/-- The input image of each round is complete and carries the frame of the device. -/
def GoodInputs (oc : Bool) (cfg : CouplerConfig) (j : Nat) (len : ProcessDataLength) (oi oo : Word) :
    Plant → List (List Word) → Prop
  | _, [] => True
  | s, pi :: pis => InputsReady cfg pi ∧ (∃ f, inFrame len oi pi = some f ∧ s.Presents f) ∧
    GoodInputs oc cfg j len oi oo (s.round oc j len oi oo pi) pis

/-- The device sees its segment acknowledged. -/
def Acknowledged (len : ProcessDataLength) (oo : Word) (s : Plant) : Prop :=
  ∃ f, outFrame len oo s.out = some f ∧ f.rxCntAck = s.rxCnt

/-- The device presents a segment, and there is a complete cycle. -/
def receive (oc : Bool) (j : Nat) (len : ProcessDataLength) (oi oo : Word) (s : Plant)
    (r : List Byte × List Word) : Plant := s.run oc j len oi oo [.post r.1, .start r.2, .finish]

/-- The device presents several segments, each in a cycle of its own. -/
def receives (oc : Bool) (j : Nat) (len : ProcessDataLength) (oi oo : Word) (s : Plant)
    (rs : List (List Byte × List Word)) : Plant := rs.foldl (receive oc j len oi oo) s

/-- The input images are complete and carry the frame of the device with the segment it presents. -/
def GoodSegments (oc : Bool) (cfg : CouplerConfig) (j : Nat) (len : ProcessDataLength)
    (oi oo : Word) : Plant → List (List Byte × List Word) → Prop
  | _, [] => True
  | s, r :: rs => InputsReady cfg r.2 ∧
    (∃ f, inFrame len oi r.2 = some f ∧ (s.step oc j len oi oo (.post r.1)).Presents f) ∧
    GoodSegments oc cfg j len oi oo (s.receive oc j len oi oo r) rs

end Plant

/-- A schedule without crashes. -/
def NoCrashes (evs : List UPEv) : Prop := ∀ e ∈ evs, e ≠ .crash

/-- A schedule without lost images and without crashes. -/
def OnlyFailing (evs : List UPEv) : Prop := ∀ e ∈ evs, e ≠ .lost ∧ e ≠ .crash

/-- Only values the modules accept are written to other modules. -/
def AcceptedValues (cfg : CouplerConfig) (evs : List UPEv) : Prop :=
  ∀ a v, UPEv.ev (.other (.setOutput a v)) ∈ evs → ∀ t, cfg.modules[a.module]? = some t →
    Accepts t v

end Ur20.Spec
