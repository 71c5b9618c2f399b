import Verif.Spec.LateNet
import Verif.Spec.Lost

/-!
# Specification: failing cycles with late and lost images

The systems of `Spec/Late.lean`, `Spec/LatePlant.lean` and `Spec/LateNet.lean` with one more step: a cycle
that fails although both images can be decoded, for example because of a value that does not fit to an
output. The application gets no image and goes on with the one it has.
-/

namespace Ur20.Spec

open Com

/-- One step of the schedule of a processor: as without failing cycles, or a cycle whose image the
application does not get. -/
inductive LateFailEv where
  | ev (e : LateEv)
  | fail

namespace Late

/-- The effect of one step. -/
def fstep (s : Late) : LateFailEv → Late
  | .ev e => s.step e
  | .fail =>
    { s with p := (s.p.next s.inp s.kept).1, cycles := s.cycles + 1
             early := if s.cycles < 2 then s.shown.length else s.early }

/-- A whole schedule. -/
def frun (s : Late) (evs : List LateFailEv) : Late := evs.foldl fstep s

/-- The segments a step loses: a failing cycle after the two of the initialisation loses the first one of
the queue, if the image of the inputs shows that the device has taken over the last one sent. -/
def failLoses (s : Late) : LateFailEv → List (List Byte)
  | .ev _ => []
  | .fail =>
    if 2 ≤ s.cycles ∧ s.kept.txCnt ≠ (s.inp.txCntAck + 1) % 4 then s.p.outData.take 1 else []

/-- The segments a schedule loses, in order. -/
def failLost : Late → List LateFailEv → List (List Byte)
  | _, [] => []
  | s, e :: evs => s.failLoses e ++ failLost (s.fstep e) evs

end Late

/-- The number of failing cycles in a schedule. -/
def LateFailEv.fails : List LateFailEv → Nat
  | [] => 0
  | .fail :: evs => fails evs + 1
  | .ev _ :: evs => fails evs

/-- One step of the schedule of a coupler: as without failing cycles, or a cycle with the images the
application has that fails although they can be decoded. -/
inductive LatePlantFailEv where
  | ev (e : LatePlantEv)
  | fail

namespace LatePlant

open Classical in
/-- The effect of one step. -/
noncomputable def fstep (oc : Bool) (cfg : CouplerConfig) (j : Nat) (len : ProcessDataLength)
    (oi oo : Word) (s : LatePlant) : LatePlantFailEv → LatePlant
  | .ev e => s.step oc j len oi oo e
  | .fail => match s.c.next oc s.inp s.kept with
    | (c', .err _) =>
      if Decodable cfg s.inp s.kept then
        { s with c := c', cycles := s.cycles + 1
                 early := if s.cycles < 2 then s.shown.length else s.early }
      else s
    | _ => s

/-- A whole schedule. -/
noncomputable def frun (oc : Bool) (cfg : CouplerConfig) (j : Nat) (len : ProcessDataLength)
    (oi oo : Word) (s : LatePlant) (evs : List LatePlantFailEv) : LatePlant :=
  evs.foldl (fstep oc cfg j len oi oo) s

/-- The segments in the transmit queue of module `j`. -/
def queue (s : LatePlant) (j : Nat) : List (List Byte) :=
  match s.c.processors j with
  | some p => p.outData
  | none => []

/-- The image of the inputs shows that the device has taken over the segment of the last returned
image. -/
def Acknowledged (s : LatePlant) (len : ProcessDataLength) (oi oo : Word) : Prop :=
  ∀ i o, inFrame len oi s.inp = some i → outFrame len oo s.kept = some o →
    o.txCnt ≠ (i.txCntAck + 1) % 4

open Classical in
/-- The segments a step loses: a failing cycle after the two of the initialisation loses the first one of
the queue, if the image of the inputs shows that the device has taken over the last one sent. -/
noncomputable def failLoses (oc : Bool) (cfg : CouplerConfig) (j : Nat) (len : ProcessDataLength)
    (oi oo : Word) (s : LatePlant) : LatePlantFailEv → List (List Byte)
  | .ev _ => []
  | .fail =>
    if 2 ≤ s.cycles ∧ s.Acknowledged len oi oo ∧ Decodable cfg s.inp s.kept ∧
        (∃ e, (s.c.next oc s.inp s.kept).2 = .err e) then (s.queue j).take 1
    else []

/-- The segments a schedule loses, in order. -/
noncomputable def failLost (oc : Bool) (cfg : CouplerConfig) (j : Nat) (len : ProcessDataLength)
    (oi oo : Word) : LatePlant → List LatePlantFailEv → List (List Byte)
  | _, [] => []
  | s, e :: evs => s.failLoses oc cfg j len oi oo e ++
      failLost oc cfg j len oi oo (s.fstep oc cfg j len oi oo e) evs

end LatePlant

/-- The number of cycles in a schedule that fail although their images can be decoded. -/
def LatePlantFailEv.fails : List LatePlantFailEv → Nat
  | [] => 0
  | .fail :: evs => fails evs + 1
  | .ev _ :: evs => fails evs

/-- The steps other than these failing cycles. -/
def LatePlantFailEv.others : List LatePlantFailEv → List LatePlantEv
  | [] => []
  | .fail :: evs => others evs
  | .ev e :: evs => e :: others evs

/-- One step of the schedule of a coupler with several devices: as without failing cycles, or a cycle with
the images the application has that fails although they can be decoded. -/
inductive LateNetFailEv where
  | ev (e : LateNetEv)
  | fail

namespace LateNet

open Classical in
/-- The effect of one step. -/
noncomputable def fstep (oc : Bool) (cfg : CouplerConfig) (w : Wiring) (s : LateNet) :
    LateNetFailEv → LateNet
  | .ev e => s.step oc w e
  | .fail => match s.c.next oc s.inp s.kept with
    | (c', .err _) =>
      if Decodable cfg s.inp s.kept then
        { s with
          c := c', cycles := s.cycles + 1
          line := fun j => { s.line j with
            early := if s.cycles < 2 then (s.line j).shown.length else (s.line j).early } }
      else s
    | _ => s

/-- A whole schedule. -/
noncomputable def frun (oc : Bool) (cfg : CouplerConfig) (w : Wiring) (s : LateNet)
    (evs : List LateNetFailEv) : LateNet := evs.foldl (fstep oc cfg w) s

/-- The segments in the transmit queue of module `j`. -/
def queue (s : LateNet) (j : Nat) : List (List Byte) :=
  match s.c.processors j with
  | some p => p.outData
  | none => []

/-- The image of the inputs shows that the device of module `j` has taken over the segment of the last
returned image. -/
def Acknowledged (w : Wiring) (s : LateNet) (j : Nat) : Prop :=
  ∀ i o, inFrame (w.wire j).len (w.wire j).oi s.inp = some i →
    outFrame (w.wire j).len (w.wire j).oo s.kept = some o → o.txCnt ≠ (i.txCntAck + 1) % 4

open Classical in
/-- The segments a step loses on module `j`: a failing cycle after the two of the initialisation loses the
first one of the queue, if the image of the inputs shows that the device has taken over the last one
sent. -/
noncomputable def failLoses (oc : Bool) (cfg : CouplerConfig) (w : Wiring) (j : Nat) (s : LateNet) :
    LateNetFailEv → List (List Byte)
  | .ev _ => []
  | .fail =>
    if 2 ≤ s.cycles ∧ s.Acknowledged w j ∧ Decodable cfg s.inp s.kept ∧
        (∃ e, (s.c.next oc s.inp s.kept).2 = .err e) then (s.queue j).take 1
    else []

/-- The segments a schedule loses on module `j`, in order. -/
noncomputable def failLost (oc : Bool) (cfg : CouplerConfig) (w : Wiring) (j : Nat) :
    LateNet → List LateNetFailEv → List (List Byte)
  | _, [] => []
  | s, e :: evs => s.failLoses oc cfg w j e ++ failLost oc cfg w j (s.fstep oc cfg w e) evs

/-- In each of these rounds the image of the inputs carries the frames of all devices, and the cycle
succeeds. -/
def GoodCycles (oc : Bool) (w : Wiring) : LateNet → List (List Word) → Prop
  | _, [] => True
  | s, pi :: pis => s.Shows w pi ∧ (∃ img, (s.c.next oc pi s.kept).2 = .ok img) ∧
    GoodCycles oc w (s.round oc w pi) pis

/-- A new coupler connected to devices in arbitrary states; the frames of the outputs carry no data. -/
structure Initial (cfg : CouplerConfig) (w : Wiring) (s : LateNet) : Prop where
  started : s.Started cfg w
  data : ∀ j ∈ w.modules, ∀ f, outFrame (w.wire j).len (w.wire j).oo s.out = some f → f.data = []

end LateNet

/-- The number of cycles in a schedule that fail although their images can be decoded. -/
def LateNetFailEv.fails : List LateNetFailEv → Nat
  | [] => 0
  | .fail :: evs => fails evs + 1
  | .ev _ :: evs => fails evs

/-- The steps other than these failing cycles. -/
def LateNetFailEv.others : List LateNetFailEv → List LateNetEv
  | [] => []
  | .fail :: evs => others evs
  | .ev e :: evs => e :: others evs

end Ur20.Spec
