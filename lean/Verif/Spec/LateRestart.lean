import Verif.Spec.LatePlant

/-!
# Specification: restarts of the application with late and lost images

An application as in `Spec/Late.lean` and `Spec/LatePlant.lean` that starts when the image of the outputs
of the device carries data, for example those of a previous run of the application. When the application
restarts the images on the way are lost, it begins with a new processor or coupler and reads both images
from the device. The records start over with each run of the application.
-/

namespace Ur20.Spec

open Com

namespace Late

/-- A new processor connected to a device in an arbitrary state. The application has just read the
images. -/
structure Started (len : ProcessDataLength) (s : Late) : Prop where
  p : s.p = MessageProcessor.new len
  kept : s.kept = s.out
  inp : ∃ nf rdy, s.inp = s.input nf rdy
  ins : s.ins = []
  outs : s.outs = []
  ack : s.ack < 4
  rxCnt : s.rxCnt < 4
  shown : s.shown.length = 1
  logs : s.cycles = 0 ∧ s.written = [] ∧ s.received = [] ∧ s.delivered = []

/-- The segment in the image the device has, if it has not taken it over yet. -/
def waiting (s : Late) : List Byte := if s.out.txCnt = (s.ack + 1) % 4 then s.out.data else []

/-- The application restarts; it reads an image of the inputs with these flags. -/
def restart (len : ProcessDataLength) (flags : Bool × Bool) (s : Late) : Late :=
  { s with p := MessageProcessor.new len, kept := s.out, inp := s.input flags.1 flags.2, ins := []
           outs := [], cycles := 0, written := [], received := [], delivered := [], early := 0
           shown := [s.shown.getLast?.getD []] }

/-- Runs of the application with a restart after each of them: what was written and what the device has
taken over in each. -/
def sessions (len : ProcessDataLength) : Late → List (List LateEv × Bool × Bool) →
    List (List Byte × List Byte)
  | _, [] => []
  | s, (evs, flags) :: rest => ((s.run evs).written, (s.run evs).received) ::
      sessions len ((s.run evs).restart len flags) rest

end Late

namespace LatePlant

/-- A new coupler connected to a device in an arbitrary state. The application has just read the
images. -/
structure Started (cfg : CouplerConfig) (j : Nat) (len : ProcessDataLength) (oi oo : Word)
    (s : LatePlant) : Prop where
  c : Coupler.new cfg = .ok s.c
  serial : SerialAt s.c j len oi oo
  disjoint : BytesKept (infos s.c) j
  kept : s.kept = s.out
  out : ∃ f, outFrame len oo s.out = some f
  inp : ∃ f, inFrame len oi s.inp = some f ∧ s.Presents f
  ins : s.ins = []
  outs : s.outs = []
  ack : s.ack < 4
  rxCnt : s.rxCnt < 4
  shown : s.shown.length = 1
  logs : s.cycles = 0 ∧ s.written = [] ∧ s.received = [] ∧ s.delivered = []

/-- The segment in the image the device has, if it has not taken it over yet. -/
def waiting (s : LatePlant) (len : ProcessDataLength) (oo : Word) : List Byte :=
  match outFrame len oo s.out with
  | some f => if f.txCnt = (s.ack + 1) % 4 then f.data else []
  | none => []

/-- The application restarts with the new coupler `c`; it reads the image `pi` of the inputs. -/
def restart (c : Coupler) (pi : List Word) (s : LatePlant) : LatePlant :=
  { s with c := c, kept := s.out, inp := pi, ins := [], outs := [], cycles := 0, written := []
           received := [], delivered := [], early := 0, shown := [s.shown.getLast?.getD []] }

/-- Runs of the application with a restart after each of them: what was written and what the device has
taken over in each. -/
def sessions (oc : Bool) (j : Nat) (len : ProcessDataLength) (oi oo : Word) (c : Coupler) :
    LatePlant → List (List LatePlantEv × List Word) → List (List Byte × List Byte)
  | _, [] => []
  | s, (evs, pi) :: rest => ((s.run oc j len oi oo evs).written, (s.run oc j len oi oo evs).received) ::
      sessions oc j len oi oo c ((s.run oc j len oi oo evs).restart c pi) rest

/-- The images of the inputs read after the restarts carry the frame of the device, and cycles that fail
do so because their images cannot be decoded. -/
def GoodSessions (oc : Bool) (cfg : CouplerConfig) (j : Nat) (len : ProcessDataLength) (oi oo : Word)
    (c : Coupler) : LatePlant → List (List LatePlantEv × List Word) → Prop
  | _, [] => True
  | s, (evs, pi) :: rest => OnlyUndecodable oc cfg evs ∧
      (∃ f, inFrame len oi pi = some f ∧ (s.run oc j len oi oo evs).Presents f) ∧
      GoodSessions oc cfg j len oi oo c ((s.run oc j len oi oo evs).restart c pi) rest

end LatePlant

end Ur20.Spec
