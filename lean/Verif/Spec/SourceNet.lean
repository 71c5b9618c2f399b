import Verif.Spec.SourceRuns
import Verif.Spec.Network

/-!
# Specification: serial devices behind a coupler of the translated source

The system of `Spec/Network.lean`, with the functions of the translated source only: a coupler, some
of whose serial modules are connected to devices, an application that writes, reads and sets values,
cycles that may fail, images that may be lost, and crashes of the application. Devices, schedules and
what is recorded of each line are those of `Spec/Network.lean`.
-/

namespace Ur20.Spec

open Ur20.Src

/-- A coupler of the translated source, its output image and its serial devices. -/
structure Src.Net where
  c : Ur20.Src.ur20_fbc_mod_tcp.Coupler
  /-- number of cycles since the start of the application -/
  cycles : Nat
  /-- the output image, as last transferred -/
  out : List Word
  /-- the image returned by a cycle, not yet transferred -/
  pending : Option (List Word)
  line : Nat → Line

namespace Src.Net

/-- Changes one device. -/
def setLine (s : Src.Net) (j : Nat) (l : Line) : Src.Net :=
  { s with line := fun i => if i = j then l else s.line i }

/-- Every device finds its frame in the input image. -/
def Shows (w : Wiring) (s : Src.Net) (pi : List Word) : Prop :=
  ∀ j ∈ w.modules, ∃ f, inFrame (w.wire j).len (w.wire j).oi pi = some f ∧ (s.line j).Presents f

open Classical in
/-- The effect of one step; steps that are not enabled have no effect, as in `Spec.Net.step`. A call
iterates over hash maps in the order `ord` and reads into a buffer that holds `fill`. -/
noncomputable def step (oc : Bool) (cfg : CouplerConfig) (w : Wiring) (ord : Imp.Orders)
    (fill : Nat → Byte) (s : Src.Net) : NEv → Src.Net
  | .write j buf =>
    if j ∈ w.modules then
      { s with c := (Src.call oc s.c ord fill (.write j buf)).1 }.setLine j
        { s.line j with written := (s.line j).written ++ buf }
    else s
  | .read j n =>
    if j ∈ w.modules then
      match Src.call oc s.c ord fill (.read j n) with
      | (c', .read (.ok (some bytes))) =>
        { s with c := c' }.setLine j { s.line j with delivered := (s.line j).delivered ++ bytes }
      | _ => s
    else s
  | .set j v =>
    if j ∈ w.modules then
      { s with c := (Src.call oc s.c ord fill (.setOutput ⟨j, 0⟩ v)).1 }.setLine j
        { s.line j with waiting := some v }
    else s
  | .other op =>
    if ∀ j ∈ w.modules, op.Elsewhere j then
      { s with c := (Src.call oc s.c ord fill op).1 }
    else s
  | .start pi => match s.pending, Src.call oc s.c ord fill (.next pi s.out) with
    | none, (c', .next (.ok img)) =>
      if s.Shows w pi then
        { s with
          c := c', pending := some img, cycles := s.cycles + 1,
          line := fun j => (s.line j).cycled (s.cycles + 1) }
      else s
    | _, _ => s
  | .failing pi => match s.pending, Src.call oc s.c ord fill (.next pi s.out) with
    | none, (c', .next (.err _)) =>
      if (∀ j ∈ w.modules, ∀ f, inFrame (w.wire j).len (w.wire j).oi pi = some f →
            (s.line j).Presents f) ∧ (oc = false → s.out.length ≤ 0xF800) then
        if Decodable cfg pi s.out then
          { s with
            c := c', cycles := s.cycles + 1,
            line := fun j => (s.line j).cycled (s.cycles + 1) }
        else { s with c := c' }
      else s
    | _, _ => s
  | .finish => match s.pending with
    | some img => { s with out := img, pending := none }
    | none => s
  | .lost => { s with pending := none }
  | .crash => match ur20_fbc_mod_tcp.Coupler.new oc cfg with
    | .ok c0 =>
      { s with
        c := c0, cycles := 0, pending := none,
        line := fun j => { s.line j with fresh := true, waiting := none } }
    | _ => s
  | .take j =>
    if j ∈ w.modules then
      match outFrame (w.wire j).len (w.wire j).oo s.out with
      | some f =>
        if f.txCnt = ((s.line j).ack + 1) % 4 then
          s.setLine j { s.line j with ack := f.txCnt, received := (s.line j).received ++ f.data }
        else s
      | none => s
    else s
  | .post j seg =>
    if j ∈ w.modules then
      match outFrame (w.wire j).len (w.wire j).oo s.out with
      | some f =>
        if f.rxCntAck = (s.line j).rxCnt then
          s.setLine j { s.line j with
            rxCnt := ((s.line j).rxCnt + 1) % 4, avail := true, rxData := seg, fresh := true }
        else s
      | none => s
    else s
  | .hide j =>
    if j ∈ w.modules then
      match outFrame (w.wire j).len (w.wire j).oo s.out with
      | some f =>
        if f.rxCntAck = (s.line j).rxCnt then s.setLine j { s.line j with avail := false } else s
      | none => s
    else s

/-- A whole schedule; step number `k` uses `ord k` and `fill k`. -/
noncomputable def run (oc : Bool) (cfg : CouplerConfig) (w : Wiring) (ord : Nat → Imp.Orders)
    (fill : Nat → Nat → Byte) : Nat → Src.Net → List NEv → Src.Net
  | _, s, [] => s
  | k, s, e :: evs => run oc cfg w ord fill (k + 1) (s.step oc cfg w (ord k) (fill k) e) evs

/-- A new coupler whose modules `w.modules` are serial, at registers, and connected to devices in
arbitrary states, except that the output frames carry no data and counters are below 4. -/
structure Initial (oc : Bool) (cfg : CouplerConfig) (w : Wiring) (s : Src.Net) : Prop where
  c : ur20_fbc_mod_tcp.Coupler.new oc cfg = .ok s.c
  distinct : w.modules.Nodup
  serial : ∀ j ∈ w.modules, ∃ par,
    ConfiguredAt cfg j .UR20_1COM_232_485_422 par (w.wire j).oo (w.wire j).oi ∧
      frameLength par = (w.wire j).len ∧ (w.wire j).oi ≠ noOffset ∧ (w.wire j).oo ≠ noOffset ∧
      (w.wire j).oi.toNat % 16 = 0 ∧ (w.wire j).oo.toNat % 16 = 0 ∧ 0x8000 ≤ (w.wire j).oo.toNat
  disjoint : ∀ j ∈ w.modules, OutputsKept cfg j
  cycles : s.cycles = 0
  out : ∀ j ∈ w.modules, ∃ f, outFrame (w.wire j).len (w.wire j).oo s.out = some f ∧ f.data = []
  pending : s.pending = none
  devices : ∀ j ∈ w.modules, (s.line j).ack < 4 ∧ (s.line j).rxCnt < 4
  logs : ∀ j ∈ w.modules, (s.line j).written = [] ∧ (s.line j).received = [] ∧
    (s.line j).seen = [] ∧ (s.line j).delivered = [] ∧ (s.line j).fresh = true ∧
    (s.line j).waiting = none

/-- Nothing is lost and there is no crash; if a cycle fails then because its images cannot be
decoded. -/
def OnlyUndecodable (oc : Bool) (cfg : CouplerConfig) (w : Wiring) (ord : Nat → Imp.Orders)
    (fill : Nat → Nat → Byte) : Nat → Src.Net → List NEv → Prop
  | _, _, [] => True
  | k, s, e :: evs => (match e with
      | .failing pi => ¬ Decodable cfg pi s.out
      | .lost => False
      | .crash => False
      | _ => True) ∧
    OnlyUndecodable oc cfg w ord fill (k + 1) (s.step oc cfg w (ord k) (fill k) e) evs

/-- The bytes in the transmit queue of a module. -/
def queued (s : Src.Net) (j : Nat) : List Byte :=
  match r_get s.c.processors j with
  | some p => p.outData.flatten
  | none => []

/-- The number of segments in the transmit queue of a module. -/
def segments (s : Src.Net) (j : Nat) : Nat :=
  match r_get s.c.processors j with
  | some p => p.outData.length
  | none => 0

/-- The bytes in the receive buffer of a module. -/
def buffered (s : Src.Net) (j : Nat) : List Byte :=
  match r_get s.c.processors j with
  | some p => p.inData
  | none => []

/-- Bytes that have left the queue but have not been taken over: those of the frame in the output
image, if the device has not taken it over, and those of a new frame in an image that is not
transferred yet. -/
def inFlight (w : Wiring) (s : Src.Net) (j : Nat) : List Byte :=
  match outFrame (w.wire j).len (w.wire j).oo s.out with
  | none => []
  | some f =>
    (if f.txCnt = ((s.line j).ack + 1) % 4 then f.data else []) ++
    (match s.pending.bind (outFrame (w.wire j).len (w.wire j).oo) with
      | some r => if r.txCnt ≠ f.txCnt then r.data else []
      | none => [])

/-- A complete cycle, and then every device looks at the image. -/
def roundEvents (w : Wiring) (pi : List Word) : List NEv :=
  [.start pi, .finish] ++ w.modules.map .take

/-- Several rounds, the first of which begins with step number `k`. -/
noncomputable def rounds (oc : Bool) (cfg : CouplerConfig) (w : Wiring) (ord : Nat → Imp.Orders)
    (fill : Nat → Nat → Byte) (k : Nat) (s : Src.Net) (pis : List (List Word)) : Src.Net :=
  s.run oc cfg w ord fill k (pis.flatMap (roundEvents w))

/-- The input image of each round is complete and carries the frames of all devices. -/
def GoodInputs (oc : Bool) (cfg : CouplerConfig) (w : Wiring) (ord : Nat → Imp.Orders)
    (fill : Nat → Nat → Byte) : Nat → Src.Net → List (List Word) → Prop
  | _, _, [] => True
  | k, s, pi :: pis => InputsReady cfg pi ∧ s.Shows w pi ∧
    GoodInputs oc cfg w ord fill (k + (roundEvents w pi).length)
      (s.run oc cfg w ord fill k (roundEvents w pi)) pis

end Src.Net

end Ur20.Spec
