import Verif.Spec.SourceNet
import Verif.Spec.LateNet

/-!
# Specification: late and lost images with a coupler of the translated source

The system of `Spec/LateNet.lean`, with the functions of the translated source only. Devices, schedules
and what is recorded of each line are those of `Spec/LateNet.lean`.
-/

namespace Ur20.Spec

open Ur20.Src

/-- A coupler of the translated source, the images and the devices. -/
structure Src.LateNet where
  /-- the coupler -/
  c : Ur20.Src.ur20_fbc_mod_tcp.Coupler
  /-- the image the last cycle returned -/
  kept : List Word
  /-- the image of the inputs the application has -/
  inp : List Word
  /-- images of the inputs on their way to the application, oldest first -/
  ins : List (List Word)
  /-- images of the outputs on their way to the station, oldest first -/
  outs : List (List Word)
  /-- the image of the outputs the station has -/
  out : List Word
  /-- number of cycles -/
  cycles : Nat
  line : Nat → LateLine

namespace Src.LateNet

/-- Changes one device. -/
def setLine (s : Src.LateNet) (j : Nat) (l : LateLine) : Src.LateNet :=
  { s with line := fun i => if i = j then l else s.line i }

/-- Every device finds its frame in the image of the inputs. -/
def Shows (w : Wiring) (s : Src.LateNet) (pi : List Word) : Prop :=
  ∀ j ∈ w.modules, ∃ f, inFrame (w.wire j).len (w.wire j).oi pi = some f ∧ (s.line j).Presents f

open Classical in
/-- The effect of one step; steps that are not enabled have no effect, as in `Spec.LateNet.step`. A call
iterates over hash maps in the order `ord` and reads into a buffer that holds `fill`. -/
noncomputable def step (oc : Bool) (w : Wiring) (ord : Imp.Orders) (fill : Nat → Byte)
    (s : Src.LateNet) : LateNetEv → Src.LateNet
  | .write j buf =>
    if j ∈ w.modules then
      { s with c := (Src.call oc s.c ord fill (.write j buf)).1 }.setLine j
        { s.line j with written := (s.line j).written ++ buf }
    else s
  | .read j n =>
    if j ∈ w.modules then
      match Src.call oc s.c ord fill (.read j n) with
      | (c', .read (.ok (some bytes))) =>
        { s with c := c' }.setLine j { s.line j with delivered := (s.line j).delivered ++ bytes }
      | _ => s
    else s
  | .other op =>
    if ∀ j ∈ w.modules, op.Elsewhere j then { s with c := (Src.call oc s.c ord fill op).1 } else s
  | .sample pi => if s.Shows w pi then { s with ins := s.ins ++ [pi] } else s
  | .arrive => match s.ins with
    | i :: ins => { s with inp := i, ins := ins }
    | [] => s
  | .loseIn n => { s with ins := s.ins.eraseIdx n }
  | .cycle => match Src.call oc s.c ord fill (.next s.inp s.kept) with
    | (c', .next (.ok img)) =>
      { s with
        c := c', kept := img, outs := s.outs ++ [img], cycles := s.cycles + 1
        line := fun j => { s.line j with
          early := if s.cycles < 2 then (s.line j).shown.length else (s.line j).early } }
    | _ => s
  | .failing pi po => match Src.call oc s.c ord fill (.next pi po) with
    | (c', .next (.err _)) => { s with c := c' }
    | _ => s
  | .again => { s with outs := s.outs ++ [s.kept] }
  | .deliver => match s.outs with
    | o :: outs => { s with out := o, outs := outs }
    | [] => s
  | .loseOut n => { s with outs := s.outs.eraseIdx n }
  | .take j =>
    if j ∈ w.modules then
      match outFrame (w.wire j).len (w.wire j).oo s.out with
      | some f =>
        if f.txCnt = ((s.line j).ack + 1) % 4 then
          s.setLine j { s.line j with ack := f.txCnt, received := (s.line j).received ++ f.data }
        else s
      | none => s
    else s
  | .post j seg =>
    if j ∈ w.modules then
      match outFrame (w.wire j).len (w.wire j).oo s.out with
      | some f =>
        if f.rxCntAck = (s.line j).rxCnt then
          s.setLine j { s.line j with
            rxCnt := ((s.line j).rxCnt + 1) % 4, avail := true, shown := (s.line j).shown ++ [seg] }
        else s
      | none => s
    else s
  | .hide j =>
    if j ∈ w.modules then
      match outFrame (w.wire j).len (w.wire j).oo s.out with
      | some f =>
        if f.rxCntAck = (s.line j).rxCnt then s.setLine j { s.line j with avail := false } else s
      | none => s
    else s

/-- A whole schedule; step number `k` uses `ord k` and `fill k`. -/
noncomputable def run (oc : Bool) (w : Wiring) (ord : Nat → Imp.Orders) (fill : Nat → Nat → Byte) :
    Nat → Src.LateNet → List LateNetEv → Src.LateNet
  | _, s, [] => s
  | k, s, e :: evs => run oc w ord fill (k + 1) (s.step oc w (ord k) (fill k) e) evs

/-- A new coupler whose modules `w.modules` are serial, at registers, and connected to devices in
arbitrary states; the image of the outputs may carry data. The application has just read the images. -/
structure Started (oc : Bool) (cfg : CouplerConfig) (w : Wiring) (s : Src.LateNet) : Prop where
  c : ur20_fbc_mod_tcp.Coupler.new oc cfg = .ok s.c
  distinct : w.modules.Nodup
  serial : ∀ j ∈ w.modules, ∃ par,
    ConfiguredAt cfg j .UR20_1COM_232_485_422 par (w.wire j).oo (w.wire j).oi ∧
      frameLength par = (w.wire j).len ∧ (w.wire j).oi ≠ noOffset ∧ (w.wire j).oo ≠ noOffset ∧
      (w.wire j).oi.toNat % 16 = 0 ∧ (w.wire j).oo.toNat % 16 = 0 ∧ 0x8000 ≤ (w.wire j).oo.toNat
  kept_bytes : ∀ j ∈ w.modules, OutputsKept cfg j
  kept : s.kept = s.out
  out : ∀ j ∈ w.modules, ∃ f, outFrame (w.wire j).len (w.wire j).oo s.out = some f
  inp : s.Shows w s.inp
  ins : s.ins = []
  outs : s.outs = []
  cycles : s.cycles = 0
  devices : ∀ j ∈ w.modules, (s.line j).ack < 4 ∧ (s.line j).rxCnt < 4 ∧
    (s.line j).shown.length = 1
  logs : ∀ j ∈ w.modules, (s.line j).written = [] ∧ (s.line j).received = [] ∧
    (s.line j).delivered = []

/-- The bytes queued for sending by a module. -/
def queued (s : Src.LateNet) (j : Nat) : List Byte :=
  match r_get s.c.processors j with
  | some p => p.outData.flatten
  | none => []

/-- The number of segments queued for sending by a module. -/
def segments (s : Src.LateNet) (j : Nat) : Nat :=
  match r_get s.c.processors j with
  | some p => p.outData.length
  | none => 0

/-- The bytes received by a module and not read yet. -/
def buffered (s : Src.LateNet) (j : Nat) : List Byte :=
  match r_get s.c.processors j with
  | some p => p.inData
  | none => []

/-- The segment of the last returned image, if the device has not taken it over yet. -/
def inFlight (w : Wiring) (s : Src.LateNet) (j : Nat) : List Byte :=
  match outFrame (w.wire j).len (w.wire j).oo s.kept with
  | some f => if f.txCnt = ((s.line j).ack + 1) % 4 then f.data else []
  | none => []

/-- The segment in the image the station has, if the device has not taken it over yet. -/
def waiting (w : Wiring) (s : Src.LateNet) (j : Nat) : List Byte :=
  match outFrame (w.wire j).len (w.wire j).oo s.out with
  | some f => if f.txCnt = ((s.line j).ack + 1) % 4 then f.data else []
  | none => []

/-- A round without losses and delays: the image of the inputs arrives, a cycle, its image arrives, and
every device looks at it. -/
def roundEvents (w : Wiring) (pi : List Word) : List LateNetEv :=
  [.sample pi, .arrive, .cycle, .deliver] ++ w.modules.map .take

/-- Several rounds, the first of which begins with step number `k`. -/
noncomputable def rounds (oc : Bool) (w : Wiring) (ord : Nat → Imp.Orders) (fill : Nat → Nat → Byte)
    (k : Nat) (s : Src.LateNet) (pis : List (List Word)) : Src.LateNet :=
  s.run oc w ord fill k (pis.flatMap (roundEvents w))

/-- The image of the inputs of each round is complete and carries the frames of all devices. -/
def GoodInputs (oc : Bool) (cfg : CouplerConfig) (w : Wiring) (ord : Nat → Imp.Orders)
    (fill : Nat → Nat → Byte) : Nat → Src.LateNet → List (List Word) → Prop
  | _, _, [] => True
  | k, s, pi :: pis => InputsReady cfg pi ∧ s.Shows w pi ∧
    GoodInputs oc cfg w ord fill (k + (roundEvents w pi).length)
      (s.run oc w ord fill k (roundEvents w pi)) pis

/-- The application restarts with the new coupler `c`; it reads the image `pi` of the inputs. The images
on the way are lost, and the records start over. -/
def restart (c : Ur20.Src.ur20_fbc_mod_tcp.Coupler) (pi : List Word) (s : Src.LateNet) : Src.LateNet :=
  { s with
    c := c, kept := s.out, inp := pi, ins := [], outs := [], cycles := 0
    line := fun j => { s.line j with
      written := [], received := [], delivered := [], early := 0
      shown := [(s.line j).shown.getLast?.getD []] } }

/-- Runs of the application with a restart after each of them: what was written to module `j` and what
its device has taken over in each. The first step has number `k`. -/
noncomputable def sessions (oc : Bool) (w : Wiring) (ord : Nat → Imp.Orders) (fill : Nat → Nat → Byte)
    (c : Ur20.Src.ur20_fbc_mod_tcp.Coupler) (j : Nat) :
    Nat → Src.LateNet → List (List LateNetEv × List Word) → List (List Byte × List Byte)
  | _, _, [] => []
  | k, s, (evs, pi) :: rest =>
    let r := s.run oc w ord fill k evs
    ((r.line j).written, (r.line j).received) ::
      sessions oc w ord fill c j (k + evs.length) (r.restart c pi) rest

/-- The images of the inputs read after the restarts carry the frames of all devices, and cycles that
fail do so because their images cannot be decoded. -/
def GoodSessions (oc : Bool) (cfg : CouplerConfig) (w : Wiring) (ord : Nat → Imp.Orders)
    (fill : Nat → Nat → Byte) (c : Ur20.Src.ur20_fbc_mod_tcp.Coupler) :
    Nat → Src.LateNet → List (List LateNetEv × List Word) → Prop
  | _, _, [] => True
  | k, s, (evs, pi) :: rest => Spec.LateNet.OnlyUndecodable oc cfg evs ∧
      (s.run oc w ord fill k evs).Shows w pi ∧
      GoodSessions oc cfg w ord fill c (k + evs.length) ((s.run oc w ord fill k evs).restart c pi) rest

end Src.LateNet

end Ur20.Spec
