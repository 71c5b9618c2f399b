import Verif.Spec.LateSource
import Verif.Spec.LateFail

/-!
# Specification: failing cycles with late and lost images, with a coupler of the translated source

The schedules of `Spec/LateFail.lean`, with the functions of the translated source only.
-/

namespace Ur20.Spec

open Ur20.Src

namespace Src.LateNet

open Classical in
/-- The effect of one step, as in `Spec.LateNet.fstep`. -/
noncomputable def fstep (oc : Bool) (cfg : CouplerConfig) (w : Wiring) (ord : Imp.Orders)
    (fill : Nat → Byte) (s : Src.LateNet) : LateNetFailEv → Src.LateNet
  | .ev e => s.step oc w ord fill e
  | .fail => match Src.call oc s.c ord fill (.next s.inp s.kept) with
    | (c', .next (.err _)) =>
      if Decodable cfg s.inp s.kept then
        { s with
          c := c', cycles := s.cycles + 1
          line := fun j => { s.line j with
            early := if s.cycles < 2 then (s.line j).shown.length else (s.line j).early } }
      else s
    | _ => s

/-- A whole schedule; step number `k` uses `ord k` and `fill k`. -/
noncomputable def frun (oc : Bool) (cfg : CouplerConfig) (w : Wiring) (ord : Nat → Imp.Orders)
    (fill : Nat → Nat → Byte) : Nat → Src.LateNet → List LateNetFailEv → Src.LateNet
  | _, s, [] => s
  | k, s, e :: evs => frun oc cfg w ord fill (k + 1) (s.fstep oc cfg w (ord k) (fill k) e) evs

/-- The segments in the transmit queue of module `j`. -/
def queue (s : Src.LateNet) (j : Nat) : List (List Byte) :=
  match r_get s.c.processors j with
  | some p => p.outData
  | none => []

/-- The image of the inputs shows that the device of module `j` has taken over the segment of the last
returned image. -/
def Acknowledged (w : Wiring) (s : Src.LateNet) (j : Nat) : Prop :=
  ∀ i o, inFrame (w.wire j).len (w.wire j).oi s.inp = some i →
    outFrame (w.wire j).len (w.wire j).oo s.kept = some o → o.txCnt ≠ (i.txCntAck + 1) % 4

open Classical in
/-- The segments a step loses on module `j`: a failing cycle after the two of the initialisation loses the
first one of the queue, if the image of the inputs shows that the device has taken over the last one
sent. -/
noncomputable def failLoses (oc : Bool) (cfg : CouplerConfig) (w : Wiring) (ord : Imp.Orders)
    (fill : Nat → Byte) (j : Nat) (s : Src.LateNet) : LateNetFailEv → List (List Byte)
  | .ev _ => []
  | .fail =>
    if 2 ≤ s.cycles ∧ s.Acknowledged w j ∧ Decodable cfg s.inp s.kept ∧
        (∃ e, (Src.call oc s.c ord fill (.next s.inp s.kept)).2 = .next (.err e)) then
      (s.queue j).take 1
    else []

/-- The segments a schedule loses on module `j`, in order; step number `k` uses `ord k` and `fill k`. -/
noncomputable def failLost (oc : Bool) (cfg : CouplerConfig) (w : Wiring) (ord : Nat → Imp.Orders)
    (fill : Nat → Nat → Byte) (j : Nat) : Nat → Src.LateNet → List LateNetFailEv → List (List Byte)
  | _, _, [] => []
  | k, s, e :: evs => s.failLoses oc cfg w (ord k) (fill k) j e ++
      failLost oc cfg w ord fill j (k + 1) (s.fstep oc cfg w (ord k) (fill k) e) evs

/-- In each of these rounds the image of the inputs carries the frames of all devices, and the cycle
succeeds. -/
def GoodCycles (oc : Bool) (w : Wiring) (ord : Nat → Imp.Orders) (fill : Nat → Nat → Byte) :
    Nat → Src.LateNet → List (List Word) → Prop
  | _, _, [] => True
  | k, s, pi :: pis => s.Shows w pi ∧
    (∃ img, (Src.call oc s.c (ord k) (fill k) (.next pi s.kept)).2 = .next (.ok img)) ∧
    GoodCycles oc w ord fill (k + (roundEvents w pi).length)
      (s.run oc w ord fill k (roundEvents w pi)) pis

/-- A new coupler connected to devices in arbitrary states; the frames of the outputs carry no data. -/
structure Initial (oc : Bool) (cfg : CouplerConfig) (w : Wiring) (s : Src.LateNet) : Prop where
  started : s.Started oc cfg w
  data : ∀ j ∈ w.modules, ∀ f, outFrame (w.wire j).len (w.wire j).oo s.out = some f → f.data = []

/-- Runs of the application with a restart after each of them: what was written to module `j` and what
its device has taken over in each. The first step has number `k`. -/
noncomputable def fsessions (oc : Bool) (cfg : CouplerConfig) (w : Wiring) (ord : Nat → Imp.Orders)
    (fill : Nat → Nat → Byte) (c : Ur20.Src.ur20_fbc_mod_tcp.Coupler) (j : Nat) :
    Nat → Src.LateNet → List (List LateNetFailEv × List Word) → List (List Byte × List Byte)
  | _, _, [] => []
  | k, s, (evs, pi) :: rest =>
    let r := s.frun oc cfg w ord fill k evs
    ((r.line j).written, (r.line j).received) ::
      fsessions oc cfg w ord fill c j (k + evs.length) (r.restart c pi) rest

/-- The images of the inputs read after the restarts carry the frames of all devices, and cycles with
other images than those the application has fail because these cannot be decoded. -/
def GoodFailSessions (oc : Bool) (cfg : CouplerConfig) (w : Wiring) (ord : Nat → Imp.Orders)
    (fill : Nat → Nat → Byte) (c : Ur20.Src.ur20_fbc_mod_tcp.Coupler) :
    Nat → Src.LateNet → List (List LateNetFailEv × List Word) → Prop
  | _, _, [] => True
  | k, s, (evs, pi) :: rest => Spec.LateNet.OnlyUndecodable oc cfg (LateNetFailEv.others evs) ∧
      (s.frun oc cfg w ord fill k evs).Shows w pi ∧
      GoodFailSessions oc cfg w ord fill c (k + evs.length)
        ((s.frun oc cfg w ord fill k evs).restart c pi) rest

end Src.LateNet

end Ur20.Spec
