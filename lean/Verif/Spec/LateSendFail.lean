import Verif.Spec.Capacity
import Verif.Spec.LateSend
import Verif.Spec.LateFail

/-!
# Specification: failing cycles and sending with `set_output`, with late and lost images

The system of `Spec/LateSend.lean` with one more step: a cycle with the images the application has that
fails although they can be decoded. Such a cycle takes the values set on the serial modules as one that
succeeds does: their bytes count as written, after everything given to the writer before. Nothing is left
that a later cycle could send.
-/

namespace Ur20.Spec

open Com

/-- One step of the schedule. -/
inductive LateSendFailEv where
  /-- a step of `Spec/LateSend.lean` -/
  | ev (e : LateSendEv)
  /-- a cycle that fails although its images can be decoded -/
  | fail

/-- The number of cycles in a schedule that fail although their images can be decoded. -/
def LateSendFailEv.fails : List LateSendFailEv → Nat
  | [] => 0
  | .fail :: evs => fails evs + 1
  | .ev _ :: evs => fails evs

/-- The steps other than these failing cycles. -/
def LateSendFailEv.others : List LateSendFailEv → List LateSendEv
  | [] => []
  | .fail :: evs => others evs
  | .ev e :: evs => e :: others evs

/-- The first segment to send: the first one of the queue, or the first bytes that are set, as many as fit
into a frame. -/
def firstSegment (len : ProcessDataLength) : List (List Byte) → List Byte → List (List Byte)
  | seg :: _, _ => [seg]
  | [], [] => []
  | [], set => [set.take (capacity len)]

namespace LateSend

/-- The cycle with the images the application has fails although they can be decoded. -/
def Fails (oc : Bool) (cfg : CouplerConfig) (s : LateNet) : Prop :=
  Decodable cfg s.inp s.kept ∧ ∃ e, (s.c.next oc s.inp s.kept).2 = .err e

open Classical in
/-- The effect of one step. -/
noncomputable def fstep (oc : Bool) (cfg : CouplerConfig) (w : Wiring) (s : LateSend) :
    LateSendFailEv → LateSend
  | .ev e => s.step oc w e
  | .fail =>
    if Fails oc cfg s.net then start (taken s.pend (s.net.fstep oc cfg w .fail)) else s

/-- A whole schedule. -/
noncomputable def frun (oc : Bool) (cfg : CouplerConfig) (w : Wiring) (s : LateSend)
    (evs : List LateSendFailEv) : LateSend := evs.foldl (fstep oc cfg w) s

open Classical in
/-- The segments a step loses on module `j`: a failing cycle after the two of the initialisation loses the
first one to send, if the image of the inputs shows that the device has taken over the last one sent. -/
noncomputable def failLoses (oc : Bool) (cfg : CouplerConfig) (w : Wiring) (j : Nat) (s : LateSend) :
    LateSendFailEv → List (List Byte)
  | .ev _ => []
  | .fail =>
    if 2 ≤ s.net.cycles ∧ s.net.Acknowledged w j ∧ Fails oc cfg s.net then
      firstSegment (w.wire j).len (s.net.queue j) (sentBytes (s.pend j))
    else []

/-- The segments a schedule loses on module `j`, in order. -/
noncomputable def failLost (oc : Bool) (cfg : CouplerConfig) (w : Wiring) (j : Nat) :
    LateSend → List LateSendFailEv → List (List Byte)
  | _, [] => []
  | s, e :: evs => s.failLoses oc cfg w j e ++ failLost oc cfg w j (s.fstep oc cfg w e) evs

/-- In each of these rounds the image of the inputs carries the frames of all devices, and the cycle
succeeds. -/
def GoodCycles (oc : Bool) (w : Wiring) : LateSend → List (List Word) → Prop
  | _, [] => True
  | s, pi :: pis => s.net.Shows w pi ∧ (∃ img, (s.net.c.next oc pi s.net.kept).2 = .ok img) ∧
    GoodCycles oc w (s.round oc w pi) pis

/-- Runs of the application with a restart after each of them: what was written to module `j` and what
its device has taken over in each. -/
noncomputable def fsessions (oc : Bool) (cfg : CouplerConfig) (w : Wiring) (c : Coupler) (j : Nat) :
    LateNet → List (List LateSendFailEv × List Word) → List (List Byte × List Byte)
  | _, [] => []
  | s, (evs, pi) :: rest =>
    let r := ((start s).frun oc cfg w evs).net
    ((r.line j).written, (r.line j).received) :: fsessions oc cfg w c j (r.restart c pi) rest

/-- The images of the inputs read after the restarts carry the frames of all devices, and cycles with
other images than those the application has fail because these cannot be decoded. -/
def GoodFailSessions (oc : Bool) (cfg : CouplerConfig) (w : Wiring) (c : Coupler) :
    LateNet → List (List LateSendFailEv × List Word) → Prop
  | _, [] => True
  | s, (evs, pi) :: rest => OnlyUndecodable oc cfg (LateSendFailEv.others evs) ∧
      ((start s).frun oc cfg w evs).net.Shows w pi ∧
      GoodFailSessions oc cfg w c (((start s).frun oc cfg w evs).net.restart c pi) rest

end LateSend

end Ur20.Spec
