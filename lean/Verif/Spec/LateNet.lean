import Verif.Spec.LateRestart
import Verif.Spec.Network
import Verif.Spec.Loop

/-!
# Specification: any number of serial devices with late and lost images

A coupler, some of whose serial modules are connected to devices, as in `Spec/Network.lean`, and an
application that uses the image of the last cycle for the next one, as in `Spec/LatePlant.lean`. All
devices see and send the same process images, which are on the way for any time and may get lost. The
application may be restarted.
-/

namespace Ur20.Spec

open Com

/-- A device, and what has happened on its module. -/
structure LateLine where
  /-- device: the last segment number it has taken over -/
  ack : Nat
  /-- device: number of the segment it presents -/
  rxCnt : Nat
  /-- device: whether it presents a segment -/
  avail : Bool
  /-- everything written to the writer of the module -/
  written : List Byte
  /-- everything the device has taken over -/
  received : List Byte
  /-- the segments the device presents or presented, the current one last -/
  shown : List (List Byte)
  /-- the number of segments presented until the end of the initialisation (the second cycle) -/
  early : Nat
  /-- everything read from the reader of the module -/
  delivered : List Byte

/-- The frame the device puts into the image of the inputs; the two remaining flags are arbitrary. -/
def LateLine.Presents (l : LateLine) (f : RsIn) : Prop :=
  f.dataAvailable = l.avail ∧ f.rxCnt = l.rxCnt ∧ f.txCntAck = l.ack ∧
    f.data = l.shown.getLast?.getD []

instance (l : LateLine) (f : RsIn) : Decidable (l.Presents f) := by
  unfold LateLine.Presents; infer_instance

/-- A coupler, the images and the devices. -/
structure LateNet where
  /-- the coupler -/
  c : Coupler
  /-- the image the last cycle returned -/
  kept : List Word
  /-- the image of the inputs the application has -/
  inp : List Word
  /-- images of the inputs on their way to the application, oldest first -/
  ins : List (List Word)
  /-- images of the outputs on their way to the station, oldest first -/
  outs : List (List Word)
  /-- the image of the outputs the station has -/
  out : List Word
  /-- number of cycles -/
  cycles : Nat
  line : Nat → LateLine

/-- One step of the schedule. -/
inductive LateNetEv where
  /-- the application writes to the writer of a module -/
  | write (j : Nat) (buf : List Byte)
  /-- the application reads from the reader of a module -/
  | read (j : Nat) (n : Nat)
  /-- a call that is not a cycle and concerns no connected serial module -/
  | other (op : COp)
  /-- the station sends this image of its inputs -/
  | sample (pi : List Word)
  /-- the oldest image of the inputs that is on the way arrives -/
  | arrive
  /-- the `n`-th image of the inputs on the way is lost -/
  | loseIn (n : Nat)
  /-- a cycle; the returned image is sent -/
  | cycle
  /-- a cycle that fails, with any images -/
  | failing (pi po : List Word)
  /-- the application sends the last returned image again -/
  | again
  /-- the oldest image of the outputs that is on the way arrives -/
  | deliver
  /-- the `n`-th image of the outputs on the way is lost -/
  | loseOut (n : Nat)
  /-- a device looks at the image of the outputs and takes over a new segment, if there is one -/
  | take (j : Nat)
  /-- a device presents a new segment, if the previous one has been acknowledged -/
  | post (j : Nat) (segment : List Byte)
  /-- a device stops presenting an acknowledged segment -/
  | hide (j : Nat)

namespace LateNet

/-- Changes one device. -/
def setLine (s : LateNet) (j : Nat) (l : LateLine) : LateNet :=
  { s with line := fun i => if i = j then l else s.line i }

/-- Every device finds its frame in the image of the inputs. -/
def Shows (w : Wiring) (s : LateNet) (pi : List Word) : Prop :=
  ∀ j ∈ w.modules, ∃ f, inFrame (w.wire j).len (w.wire j).oi pi = some f ∧ (s.line j).Presents f

instance (w : Wiring) (s : LateNet) (pi : List Word) : Decidable (s.Shows w pi) :=
  decidable_of_iff (∀ j ∈ w.modules, ((inFrame (w.wire j).len (w.wire j).oi pi).any
      fun f => decide ((s.line j).Presents f)) = true) (by
    simp only [Shows, Option.any_eq_true, decide_eq_true_eq])

/-- The effect of one step; steps that are not enabled have no effect. An image of the inputs carries
the frames of all devices, whatever else it carries. A cycle is enabled if it succeeds, a failing
cycle if it fails. -/
def step (oc : Bool) (w : Wiring) (s : LateNet) : LateNetEv → LateNet
  | .write j buf =>
    if j ∈ w.modules then
      { s with c := (s.c.writeBytes j buf).1 }.setLine j
        { s.line j with written := (s.line j).written ++ buf }
    else s
  | .read j n =>
    if j ∈ w.modules then
      match s.c.read j n with
      | .ok (c', some bytes) =>
        { s with c := c' }.setLine j { s.line j with delivered := (s.line j).delivered ++ bytes }
      | _ => s
    else s
  | .other op => if ∀ j ∈ w.modules, op.Elsewhere j then { s with c := op.apply oc s.c } else s
  | .sample pi => if s.Shows w pi then { s with ins := s.ins ++ [pi] } else s
  | .arrive => match s.ins with
    | i :: ins => { s with inp := i, ins := ins }
    | [] => s
  | .loseIn n => { s with ins := s.ins.eraseIdx n }
  | .cycle => match s.c.next oc s.inp s.kept with
    | (c', .ok img) =>
      { s with
        c := c', kept := img, outs := s.outs ++ [img], cycles := s.cycles + 1
        line := fun j => { s.line j with
          early := if s.cycles < 2 then (s.line j).shown.length else (s.line j).early } }
    | _ => s
  | .failing pi po => match s.c.next oc pi po with
    | (c', .err _) => { s with c := c' }
    | _ => s
  | .again => { s with outs := s.outs ++ [s.kept] }
  | .deliver => match s.outs with
    | o :: outs => { s with out := o, outs := outs }
    | [] => s
  | .loseOut n => { s with outs := s.outs.eraseIdx n }
  | .take j =>
    if j ∈ w.modules then
      match outFrame (w.wire j).len (w.wire j).oo s.out with
      | some f =>
        if f.txCnt = ((s.line j).ack + 1) % 4 then
          s.setLine j { s.line j with ack := f.txCnt, received := (s.line j).received ++ f.data }
        else s
      | none => s
    else s
  | .post j seg =>
    if j ∈ w.modules then
      match outFrame (w.wire j).len (w.wire j).oo s.out with
      | some f =>
        if f.rxCntAck = (s.line j).rxCnt then
          s.setLine j { s.line j with
            rxCnt := ((s.line j).rxCnt + 1) % 4, avail := true, shown := (s.line j).shown ++ [seg] }
        else s
      | none => s
    else s
  | .hide j =>
    if j ∈ w.modules then
      match outFrame (w.wire j).len (w.wire j).oo s.out with
      | some f =>
        if f.rxCntAck = (s.line j).rxCnt then s.setLine j { s.line j with avail := false } else s
      | none => s
    else s

/-- A whole schedule. -/
def run (oc : Bool) (w : Wiring) (s : LateNet) (evs : List LateNetEv) : LateNet :=
  evs.foldl (step oc w) s

/-- If a cycle of the schedule fails then because its images cannot be decoded. (Without overflow checks
the output images that cannot be decoded have at most 63488 registers.) -/
def OnlyUndecodable (oc : Bool) (cfg : CouplerConfig) (evs : List LateNetEv) : Prop :=
  ∀ pi po, .failing pi po ∈ evs → ¬ Decodable cfg pi po ∧ (oc = false → po.length ≤ 0xF800)

/-- Only values the modules accept are written to modules that are not connected to a device. -/
def AcceptedValues (cfg : CouplerConfig) (evs : List LateNetEv) : Prop :=
  ∀ a v, .other (.setOutput a v) ∈ evs → ∀ t, cfg.modules[a.module]? = some t → Accepts t v

/-- A new coupler connected to devices in arbitrary states; the image of the outputs may carry data.
The application has just read the images. -/
structure Started (cfg : CouplerConfig) (w : Wiring) (s : LateNet) : Prop where
  c : Coupler.new cfg = .ok s.c
  distinct : w.modules.Nodup
  serial : ∀ j ∈ w.modules, SerialAt s.c j (w.wire j).len (w.wire j).oi (w.wire j).oo
  kept_bytes : ∀ j ∈ w.modules, BytesKept (infos s.c) j
  kept : s.kept = s.out
  out : ∀ j ∈ w.modules, ∃ f, outFrame (w.wire j).len (w.wire j).oo s.out = some f
  inp : s.Shows w s.inp
  ins : s.ins = []
  outs : s.outs = []
  cycles : s.cycles = 0
  devices : ∀ j ∈ w.modules, (s.line j).ack < 4 ∧ (s.line j).rxCnt < 4 ∧
    (s.line j).shown.length = 1
  logs : ∀ j ∈ w.modules, (s.line j).written = [] ∧ (s.line j).received = [] ∧
    (s.line j).delivered = []

/-- The bytes queued for sending by a module. -/
def queued (s : LateNet) (j : Nat) : List Byte :=
  match s.c.processors j with
  | some p => p.outData.flatten
  | none => []

/-- The number of segments queued for sending by a module. -/
def segments (s : LateNet) (j : Nat) : Nat :=
  match s.c.processors j with
  | some p => p.outData.length
  | none => 0

/-- The bytes received by a module and not read yet. -/
def buffered (s : LateNet) (j : Nat) : List Byte :=
  match s.c.processors j with
  | some p => p.inData
  | none => []

/-- The segment of the last returned image, if the device has not taken it over yet. -/
def inFlight (w : Wiring) (s : LateNet) (j : Nat) : List Byte :=
  match outFrame (w.wire j).len (w.wire j).oo s.kept with
  | some f => if f.txCnt = ((s.line j).ack + 1) % 4 then f.data else []
  | none => []

/-- The segment in the image the station has, if the device has not taken it over yet. -/
def waiting (w : Wiring) (s : LateNet) (j : Nat) : List Byte :=
  match outFrame (w.wire j).len (w.wire j).oo s.out with
  | some f => if f.txCnt = ((s.line j).ack + 1) % 4 then f.data else []
  | none => []

/-- A round without losses and delays: the image of the inputs arrives, a cycle, its image arrives, and
every device looks at it. -/
def round (oc : Bool) (w : Wiring) (s : LateNet) (pi : List Word) : LateNet :=
  s.run oc w ([.sample pi, .arrive, .cycle, .deliver] ++ w.modules.map .take)

/-- Several rounds. -/
def rounds (oc : Bool) (w : Wiring) (s : LateNet) (pis : List (List Word)) : LateNet :=
  pis.foldl (round oc w) s

/-- The image of the inputs of each round is complete and carries the frames of all devices. -/
def GoodInputs (oc : Bool) (cfg : CouplerConfig) (w : Wiring) : LateNet → List (List Word) → Prop
  | _, [] => True
  | s, pi :: pis => InputsReady cfg pi ∧ s.Shows w pi ∧
    GoodInputs oc cfg w (s.round oc w pi) pis

/-- The application restarts with the new coupler `c`; it reads the image `pi` of the inputs. The images
on the way are lost, and the records start over. -/
def restart (c : Coupler) (pi : List Word) (s : LateNet) : LateNet :=
  { s with
    c := c, kept := s.out, inp := pi, ins := [], outs := [], cycles := 0
    line := fun j => { s.line j with
      written := [], received := [], delivered := [], early := 0
      shown := [(s.line j).shown.getLast?.getD []] } }

/-- Runs of the application with a restart after each of them: what was written to module `j` and what
its device has taken over in each. -/
def sessions (oc : Bool) (w : Wiring) (c : Coupler) (j : Nat) :
    LateNet → List (List LateNetEv × List Word) → List (List Byte × List Byte)
  | _, [] => []
  | s, (evs, pi) :: rest => (((s.run oc w evs).line j).written, ((s.run oc w evs).line j).received) ::
      sessions oc w c j ((s.run oc w evs).restart c pi) rest

/-- The images of the inputs read after the restarts carry the frames of all devices, and cycles that
fail do so because their images cannot be decoded. -/
def GoodSessions (oc : Bool) (cfg : CouplerConfig) (w : Wiring) (c : Coupler) :
    LateNet → List (List LateNetEv × List Word) → Prop
  | _, [] => True
  | s, (evs, pi) :: rest => OnlyUndecodable oc cfg evs ∧ (s.run oc w evs).Shows w pi ∧
      GoodSessions oc cfg w c ((s.run oc w evs).restart c pi) rest

end LateNet

end Ur20.Spec
