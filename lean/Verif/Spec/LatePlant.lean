import Verif.Spec.SerialImage
import Verif.Spec.Late
import Verif.Spec.Histories

/-!
# Specification: a coupler with late and lost images

The system of `Spec/Late.lean` with a whole coupler: the device behind one of its serial modules sees
and sends whole process images, and the application uses all other modules too.
-/

namespace Ur20.Spec

open Com

/-- A coupler, the images and the device behind one of its serial modules. -/
structure LatePlant where
  /-- the coupler -/
  c : Coupler
  /-- the image the last cycle returned -/
  kept : List Word
  /-- the image of the inputs the application has -/
  inp : List Word
  /-- images of the inputs on their way to the application, oldest first -/
  ins : List (List Word)
  /-- images of the outputs on their way to the device, oldest first -/
  outs : List (List Word)
  /-- the image of the outputs the device has -/
  out : List Word
  /-- device: the last segment number it has taken over -/
  ack : Nat
  /-- device: number of the segment it presents -/
  rxCnt : Nat
  /-- device: whether it presents a segment -/
  avail : Bool
  /-- number of cycles -/
  cycles : Nat
  /-- everything written to the writer of the module -/
  written : List Byte
  /-- everything the device has taken over -/
  received : List Byte
  /-- the segments the device presents or presented, the current one last -/
  shown : List (List Byte)
  /-- the number of segments presented until the end of the initialisation (the second cycle) -/
  early : Nat
  /-- everything read from the reader of the module -/
  delivered : List Byte

/-- One step of the schedule. -/
inductive LatePlantEv where
  /-- the application writes to the writer of the module -/
  | write (buf : List Byte)
  /-- the application reads from the reader of the module -/
  | read (n : Nat)
  /-- any other call that is not a cycle -/
  | other (op : COp)
  /-- the station sends this image of its inputs -/
  | sample (pi : List Word)
  /-- the oldest image of the inputs that is on the way arrives -/
  | arrive
  /-- the `n`-th image of the inputs on the way is lost -/
  | loseIn (n : Nat)
  /-- a cycle; the returned image is sent -/
  | cycle
  /-- a cycle that fails, with any images -/
  | failing (pi po : List Word)
  /-- the application sends the last returned image again -/
  | again
  /-- the oldest image of the outputs that is on the way arrives -/
  | deliver
  /-- the `n`-th image of the outputs on the way is lost -/
  | loseOut (n : Nat)
  /-- the device looks at the image of the outputs and takes over a new segment, if there is one -/
  | take
  /-- the device presents a new segment, if the previous one has been acknowledged -/
  | post (segment : List Byte)
  /-- the device stops presenting an acknowledged segment -/
  | hide

namespace LatePlant

/-- The frame the device puts into the image of the inputs; the two remaining flags are arbitrary. -/
def Presents (s : LatePlant) (f : RsIn) : Prop :=
  f.dataAvailable = s.avail ∧ f.rxCnt = s.rxCnt ∧ f.txCntAck = s.ack ∧
    f.data = s.shown.getLast?.getD []

instance (s : LatePlant) (f : RsIn) : Decidable (s.Presents f) := by
  unfold Presents; infer_instance

/-- The effect of one step; steps that are not enabled have no effect. An image of the inputs carries
the frame of the device, whatever else it carries. A cycle is enabled if it succeeds, a failing
cycle if it fails. -/
def step (oc : Bool) (j : Nat) (len : ProcessDataLength) (oi oo : Word) (s : LatePlant) :
    LatePlantEv → LatePlant
  | .write buf => { s with c := (s.c.writeBytes j buf).1, written := s.written ++ buf }
  | .read n => match s.c.read j n with
    | .ok (c', some bytes) => { s with c := c', delivered := s.delivered ++ bytes }
    | _ => s
  | .other op => if op.Elsewhere j then { s with c := op.apply oc s.c } else s
  | .sample pi => match inFrame len oi pi with
    | some f => if s.Presents f then { s with ins := s.ins ++ [pi] } else s
    | none => s
  | .arrive => match s.ins with
    | i :: ins => { s with inp := i, ins := ins }
    | [] => s
  | .loseIn n => { s with ins := s.ins.eraseIdx n }
  | .cycle => match s.c.next oc s.inp s.kept with
    | (c', .ok img) =>
      { s with c := c', kept := img, outs := s.outs ++ [img], cycles := s.cycles + 1
               early := if s.cycles < 2 then s.shown.length else s.early }
    | _ => s
  | .failing pi po => match s.c.next oc pi po with
    | (c', .err _) => { s with c := c' }
    | _ => s
  | .again => { s with outs := s.outs ++ [s.kept] }
  | .deliver => match s.outs with
    | o :: outs => { s with out := o, outs := outs }
    | [] => s
  | .loseOut n => { s with outs := s.outs.eraseIdx n }
  | .take => match outFrame len oo s.out with
    | some f =>
      if f.txCnt = (s.ack + 1) % 4 then
        { s with ack := f.txCnt, received := s.received ++ f.data }
      else s
    | none => s
  | .post seg => match outFrame len oo s.out with
    | some f =>
      if f.rxCntAck = s.rxCnt then
        { s with rxCnt := (s.rxCnt + 1) % 4, avail := true, shown := s.shown ++ [seg] }
      else s
    | none => s
  | .hide => match outFrame len oo s.out with
    | some f => if f.rxCntAck = s.rxCnt then { s with avail := false } else s
    | none => s

/-- A whole schedule. -/
def run (oc : Bool) (j : Nat) (len : ProcessDataLength) (oi oo : Word) (s : LatePlant)
    (evs : List LatePlantEv) : LatePlant := evs.foldl (step oc j len oi oo) s

/-- If a cycle of the schedule fails then because its images cannot be decoded. (Without overflow checks
the output images that cannot be decoded have at most 63488 registers.) -/
def OnlyUndecodable (oc : Bool) (cfg : CouplerConfig) (evs : List LatePlantEv) : Prop :=
  ∀ pi po, .failing pi po ∈ evs → ¬ Decodable cfg pi po ∧ (oc = false → po.length ≤ 0xF800)

/-- A new coupler connected to a device in an arbitrary state. The application has just read the
images; the frame of the outputs carries no data. -/
structure Initial (cfg : CouplerConfig) (j : Nat) (len : ProcessDataLength) (oi oo : Word)
    (s : LatePlant) : Prop where
  c : Coupler.new cfg = .ok s.c
  serial : SerialAt s.c j len oi oo
  disjoint : BytesKept (infos s.c) j
  kept : s.kept = s.out
  out : ∃ f, outFrame len oo s.out = some f ∧ f.data = []
  inp : ∃ f, inFrame len oi s.inp = some f ∧ s.Presents f
  ins : s.ins = []
  outs : s.outs = []
  ack : s.ack < 4
  rxCnt : s.rxCnt < 4
  shown : s.shown.length = 1
  logs : s.cycles = 0 ∧ s.written = [] ∧ s.received = [] ∧ s.delivered = []

/-- The bytes queued for sending. -/
def queued (s : LatePlant) (j : Nat) : List Byte :=
  match s.c.processors j with
  | some p => p.outData.flatten
  | none => []

/-- The bytes received and not read yet. -/
def buffered (s : LatePlant) (j : Nat) : List Byte :=
  match s.c.processors j with
  | some p => p.inData
  | none => []

/-- The segment of the last returned image, if the device has not taken it over yet. -/
def inFlight (s : LatePlant) (len : ProcessDataLength) (oo : Word) : List Byte :=
  match outFrame len oo s.kept with
  | some f => if f.txCnt = (s.ack + 1) % 4 then f.data else []
  | none => []

/-- Rounds without losses and delays, with these images of the inputs. -/
def rounds (oc : Bool) (j : Nat) (len : ProcessDataLength) (oi oo : Word) (s : LatePlant)
    (pis : List (List Word)) : LatePlant :=
  s.run oc j len oi oo (pis.flatMap fun pi => [.sample pi, .arrive, .cycle, .deliver, .take])

/-- In each of these rounds the image of the inputs carries the frame of the device, and the cycle
succeeds. -/
def GoodRounds (oc : Bool) (j : Nat) (len : ProcessDataLength) (oi oo : Word) :
    LatePlant → List (List Word) → Prop
  | _, [] => True
  | s, pi :: pis => (∃ f, inFrame len oi pi = some f ∧ s.Presents f) ∧
    (∃ img, (s.c.next oc pi s.kept).2 = .ok img) ∧
    GoodRounds oc j len oi oo (s.rounds oc j len oi oo [pi]) pis

end LatePlant

end Ur20.Spec
