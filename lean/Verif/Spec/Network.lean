import Verif.Spec.Sending

/-!
# Specification: a coupler with any number of serial devices

A coupler, some of whose serial modules are connected to devices. Every device behaves like the one
of `Spec.Plant`; all see the same process images. The application writes, reads and sets values on
all of them. Cycles may fail, images may be lost and the application may crash.
-/

namespace Ur20.Spec

open Com

/-- Frame length and offsets of a serial module. -/
structure Wire where
  len : ProcessDataLength
  oi : Word
  oo : Word

/-- The serial modules that are connected to a device. -/
structure Wiring where
  modules : List Nat
  wire : Nat → Wire

/-- A device, and what has happened on its module. -/
structure Line where
  /-- device: the last segment number it has taken over -/
  ack : Nat
  /-- device: number of the segment it presents -/
  rxCnt : Nat
  /-- device: whether it presents a segment -/
  avail : Bool
  /-- device: the segment it presents -/
  rxData : List Byte
  /-- everything given to the writer, and bytes that were set and taken by a cycle -/
  written : List Byte
  /-- everything the device has taken over -/
  received : List Byte
  /-- the segments shown to an initialised module, each counted once per presentation -/
  seen : List Byte
  /-- everything read from the reader -/
  delivered : List Byte
  /-- the current presentation is not yet part of `seen` -/
  fresh : Bool
  /-- the value set on the module that no cycle has taken yet -/
  waiting : Option ChannelValue

/-- The frame the device puts into the input image; the two remaining flags are arbitrary. -/
def Line.Presents (l : Line) (f : RsIn) : Prop :=
  f.dataAvailable = l.avail ∧ f.rxCnt = l.rxCnt ∧ f.txCntAck = l.ack ∧ f.data = l.rxData

instance (l : Line) (f : RsIn) : Decidable (l.Presents f) := by
  unfold Line.Presents; infer_instance

/-- A cycle has decoded its images; it was the given number of cycles since the start. It takes the
waiting value, and an initialised module sees the segment. -/
def Line.cycled (l : Line) (cycles : Nat) : Line :=
  let l := { l with written := l.written ++ sentBytes l.waiting, waiting := none }
  if 2 < cycles ∧ l.avail = true ∧ l.fresh = true then
    { l with seen := l.seen ++ l.rxData, fresh := false }
  else l

/-- A coupler, its output image and its serial devices. -/
structure Net where
  c : Coupler
  /-- number of cycles since the start of the application -/
  cycles : Nat
  /-- the output image, as last transferred -/
  out : List Word
  /-- the image returned by a cycle, not yet transferred -/
  pending : Option (List Word)
  line : Nat → Line

/-- One step of a schedule. -/
inductive NEv where
  /-- the application writes to the writer of a module -/
  | write (j : Nat) (buf : List Byte)
  /-- the application reads from the reader of a module -/
  | read (j : Nat) (n : Nat)
  /-- the application calls `set_output` on a connected serial module -/
  | set (j : Nat) (v : ChannelValue)
  /-- a call that is not a cycle and concerns no connected serial module -/
  | other (op : COp)
  /-- a cycle with this input image and the output image last transferred -/
  | start (pi : List Word)
  /-- such a cycle, which returns an error -/
  | failing (pi : List Word)
  /-- the returned image is transferred -/
  | finish
  /-- the returned image is lost -/
  | lost
  /-- the application crashes and starts again -/
  | crash
  /-- the device takes over a new segment, if there is one -/
  | take (j : Nat)
  /-- the device presents a new segment, if the previous one has been acknowledged -/
  | post (j : Nat) (segment : List Byte)
  /-- the device stops presenting an acknowledged segment -/
  | hide (j : Nat)

namespace Net

/-- Changes one device. -/
def setLine (s : Net) (j : Nat) (l : Line) : Net :=
  { s with line := fun i => if i = j then l else s.line i }

/-- Every device finds its frame in the input image. -/
def Shows (w : Wiring) (s : Net) (pi : List Word) : Prop :=
  ∀ j ∈ w.modules, ∃ f, inFrame (w.wire j).len (w.wire j).oi pi = some f ∧ (s.line j).Presents f

instance (w : Wiring) (s : Net) (pi : List Word) : Decidable (s.Shows w pi) :=
  decidable_of_iff (∀ j ∈ w.modules, ((inFrame (w.wire j).len (w.wire j).oi pi).any
      fun f => decide ((s.line j).Presents f)) = true) (by
    simp only [Shows, Option.any_eq_true, decide_eq_true_eq])

open Classical in
/-- The effect of one step; steps that are not enabled have no effect. A cycle is enabled if the
input image carries the frames of all devices, whatever else it carries; a failing cycle also if
frames cannot be read. Without overflow checks failing cycles with images of more than 63488
registers are left out. -/
noncomputable def step (oc : Bool) (cfg : CouplerConfig) (w : Wiring) (s : Net) : NEv → Net
  | .write j buf =>
    if j ∈ w.modules then
      { s with c := (s.c.writeBytes j buf).1 }.setLine j
        { s.line j with written := (s.line j).written ++ buf }
    else s
  | .read j n =>
    if j ∈ w.modules then
      match s.c.read j n with
      | .ok (c', some bytes) =>
        { s with c := c' }.setLine j { s.line j with delivered := (s.line j).delivered ++ bytes }
      | _ => s
    else s
  | .set j v =>
    if j ∈ w.modules then
      { s with c := (s.c.setOutput ⟨j, 0⟩ v).1 }.setLine j { s.line j with waiting := some v }
    else s
  | .other op => if ∀ j ∈ w.modules, op.Elsewhere j then { s with c := op.apply oc s.c } else s
  | .start pi => match s.pending, s.c.next oc pi s.out with
    | none, (c', .ok img) =>
      if s.Shows w pi then
        { s with
          c := c', pending := some img, cycles := s.cycles + 1,
          line := fun j => (s.line j).cycled (s.cycles + 1) }
      else s
    | _, _ => s
  | .failing pi => match s.pending, s.c.next oc pi s.out with
    | none, (c', .err _) =>
      if (∀ j ∈ w.modules, ∀ f, inFrame (w.wire j).len (w.wire j).oi pi = some f →
            (s.line j).Presents f) ∧ (oc = false → s.out.length ≤ 0xF800) then
        if Decodable cfg pi s.out then
          { s with
            c := c', cycles := s.cycles + 1,
            line := fun j => (s.line j).cycled (s.cycles + 1) }
        else { s with c := c' }
      else s
    | _, _ => s
  | .finish => match s.pending with
    | some img => { s with out := img, pending := none }
    | none => s
  | .lost => { s with pending := none }
  | .crash => match Coupler.new cfg with
    | .ok c0 =>
      { s with
        c := c0, cycles := 0, pending := none,
        line := fun j => { s.line j with fresh := true, waiting := none } }
    | _ => s
  | .take j =>
    if j ∈ w.modules then
      match outFrame (w.wire j).len (w.wire j).oo s.out with
      | some f =>
        if f.txCnt = ((s.line j).ack + 1) % 4 then
          s.setLine j { s.line j with ack := f.txCnt, received := (s.line j).received ++ f.data }
        else s
      | none => s
    else s
  | .post j seg =>
    if j ∈ w.modules then
      match outFrame (w.wire j).len (w.wire j).oo s.out with
      | some f =>
        if f.rxCntAck = (s.line j).rxCnt then
          s.setLine j { s.line j with
            rxCnt := ((s.line j).rxCnt + 1) % 4, avail := true, rxData := seg, fresh := true }
        else s
      | none => s
    else s
  | .hide j =>
    if j ∈ w.modules then
      match outFrame (w.wire j).len (w.wire j).oo s.out with
      | some f =>
        if f.rxCntAck = (s.line j).rxCnt then s.setLine j { s.line j with avail := false } else s
      | none => s
    else s

/-- A whole schedule. -/
noncomputable def run (oc : Bool) (cfg : CouplerConfig) (w : Wiring) (s : Net) (evs : List NEv) :
    Net := evs.foldl (step oc cfg w) s

/-- A new coupler connected to devices in arbitrary states, except that the output frames carry no
data and counters are below 4. -/
structure Initial (cfg : CouplerConfig) (w : Wiring) (s : Net) : Prop where
  c : Coupler.new cfg = .ok s.c
  distinct : w.modules.Nodup
  serial : ∀ j ∈ w.modules, SerialAt s.c j (w.wire j).len (w.wire j).oi (w.wire j).oo
  disjoint : ∀ j ∈ w.modules, BytesKept (infos s.c) j
  cycles : s.cycles = 0
  out : ∀ j ∈ w.modules, ∃ f, outFrame (w.wire j).len (w.wire j).oo s.out = some f ∧ f.data = []
  pending : s.pending = none
  devices : ∀ j ∈ w.modules, (s.line j).ack < 4 ∧ (s.line j).rxCnt < 4
  logs : ∀ j ∈ w.modules, (s.line j).written = [] ∧ (s.line j).received = [] ∧
    (s.line j).seen = [] ∧ (s.line j).delivered = [] ∧ (s.line j).fresh = true ∧
    (s.line j).waiting = none

/-- Nothing is lost and there is no crash; if a cycle fails then because its images cannot be
decoded. -/
def OnlyUndecodable (oc : Bool) (cfg : CouplerConfig) (w : Wiring) : Net → List NEv → Prop
  | _, [] => True
  | s, e :: evs => (match e with
      | .failing pi => ¬ Decodable cfg pi s.out
      | .lost => False
      | .crash => False
      | _ => True) ∧ OnlyUndecodable oc cfg w (s.step oc cfg w e) evs

/-- The bytes in the transmit queue of a module. -/
def queued (s : Net) (j : Nat) : List Byte :=
  match s.c.processors j with
  | some p => p.outData.flatten
  | none => []

/-- The number of segments in the transmit queue of a module. -/
def segments (s : Net) (j : Nat) : Nat :=
  match s.c.processors j with
  | some p => p.outData.length
  | none => 0

/-- The bytes in the receive buffer of a module. -/
def buffered (s : Net) (j : Nat) : List Byte :=
  match s.c.processors j with
  | some p => p.inData
  | none => []

/-- Bytes that have left the queue but have not been taken over: those of the frame in the output
image, if the device has not taken it over, and those of a new frame in an image that is not
transferred yet. -/
def inFlight (w : Wiring) (s : Net) (j : Nat) : List Byte :=
  match outFrame (w.wire j).len (w.wire j).oo s.out with
  | none => []
  | some f =>
    (if f.txCnt = ((s.line j).ack + 1) % 4 then f.data else []) ++
    (match s.pending.bind (outFrame (w.wire j).len (w.wire j).oo) with
      | some r => if r.txCnt ≠ f.txCnt then r.data else []
      | none => [])

/-- A complete cycle, and then every device looks at the image. -/
noncomputable def round (oc : Bool) (cfg : CouplerConfig) (w : Wiring) (s : Net) (pi : List Word) :
    Net := s.run oc cfg w ([.start pi, .finish] ++ w.modules.map .take)

/-- Several rounds. -/
noncomputable def rounds (oc : Bool) (cfg : CouplerConfig) (w : Wiring) (s : Net)
    (pis : List (List Word)) : Net := pis.foldl (round oc cfg w) s

/-- The input image of each round is complete and carries the frames of all devices. -/
def GoodInputs (oc : Bool) (cfg : CouplerConfig) (w : Wiring) : Net → List (List Word) → Prop
  | _, [] => True
  | s, pi :: pis => InputsReady cfg pi ∧ s.Shows w pi ∧
    GoodInputs oc cfg w (s.round oc cfg w pi) pis

end Net

/-- A schedule without crashes. -/
def NoCrashesN (evs : List NEv) : Prop := ∀ e ∈ evs, e ≠ .crash

/-- Only values the modules accept are written to modules that are not serial. -/
def AcceptedValuesN (cfg : CouplerConfig) (evs : List NEv) : Prop :=
  ∀ a v, NEv.other (.setOutput a v) ∈ evs → ∀ t, cfg.modules[a.module]? = some t → Accepts t v

end Ur20.Spec
