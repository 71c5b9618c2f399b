import Verif.Spec.LateSendFail
import Verif.Spec.LateSendSource
import Verif.Spec.LateFailSource

/-!
# Specification: the system of `Spec/LateSendFail.lean` with a coupler of the translated source
-/

namespace Ur20.Spec

open Ur20.Src

namespace Src.LateSend

/-- The cycle with the images the application has fails although they can be decoded. -/
def Fails (oc : Bool) (cfg : CouplerConfig) (ord : Imp.Orders) (fill : Nat → Byte) (s : Src.LateNet) :
    Prop :=
  Decodable cfg s.inp s.kept ∧
    ∃ e, (Src.call oc s.c ord fill (.next s.inp s.kept)).2 = .next (.err e)

open Classical in
/-- The effect of one step, as in `Spec.LateSend.fstep`. -/
noncomputable def fstep (oc : Bool) (cfg : CouplerConfig) (w : Wiring) (ord : Imp.Orders)
    (fill : Nat → Byte) (s : Src.LateSend) : LateSendFailEv → Src.LateSend
  | .ev e => s.step oc w ord fill e
  | .fail =>
    if Fails oc cfg ord fill s.net then
      start (taken s.pend (s.net.fstep oc cfg w ord fill .fail))
    else s

/-- A whole schedule; step number `k` uses `ord k` and `fill k`. -/
noncomputable def frun (oc : Bool) (cfg : CouplerConfig) (w : Wiring) (ord : Nat → Imp.Orders)
    (fill : Nat → Nat → Byte) : Nat → Src.LateSend → List LateSendFailEv → Src.LateSend
  | _, s, [] => s
  | k, s, e :: evs => frun oc cfg w ord fill (k + 1) (s.fstep oc cfg w (ord k) (fill k) e) evs

open Classical in
/-- The segments a step loses on module `j`, as in `Spec.LateSend.failLoses`. -/
noncomputable def failLoses (oc : Bool) (cfg : CouplerConfig) (w : Wiring) (ord : Imp.Orders)
    (fill : Nat → Byte) (j : Nat) (s : Src.LateSend) : LateSendFailEv → List (List Byte)
  | .ev _ => []
  | .fail =>
    if 2 ≤ s.net.cycles ∧ s.net.Acknowledged w j ∧ Fails oc cfg ord fill s.net then
      firstSegment (w.wire j).len (s.net.queue j) (sentBytes (s.pend j))
    else []

/-- The segments a schedule loses on module `j`, in order. -/
noncomputable def failLost (oc : Bool) (cfg : CouplerConfig) (w : Wiring) (ord : Nat → Imp.Orders)
    (fill : Nat → Nat → Byte) (j : Nat) : Nat → Src.LateSend → List LateSendFailEv → List (List Byte)
  | _, _, [] => []
  | k, s, e :: evs => s.failLoses oc cfg w (ord k) (fill k) j e ++
      failLost oc cfg w ord fill j (k + 1) (s.fstep oc cfg w (ord k) (fill k) e) evs

/-- In each of these rounds the image of the inputs carries the frames of all devices, and the cycle
succeeds. -/
def GoodCycles (oc : Bool) (w : Wiring) (ord : Nat → Imp.Orders) (fill : Nat → Nat → Byte) :
    Nat → Src.LateSend → List (List Word) → Prop
  | _, _, [] => True
  | k, s, pi :: pis => s.net.Shows w pi ∧
    (∃ img, (Src.call oc s.net.c (ord k) (fill k) (.next pi s.net.kept)).2 = .next (.ok img)) ∧
    GoodCycles oc w ord fill (k + (roundEvents w pi).length)
      (s.run oc w ord fill k (roundEvents w pi)) pis

/-- Runs of the application with a restart after each of them: what was written to module `j` and what
its device has taken over in each. The first step has number `k`. -/
noncomputable def fsessions (oc : Bool) (cfg : CouplerConfig) (w : Wiring) (ord : Nat → Imp.Orders)
    (fill : Nat → Nat → Byte) (c : Ur20.Src.ur20_fbc_mod_tcp.Coupler) (j : Nat) :
    Nat → Src.LateNet → List (List LateSendFailEv × List Word) → List (List Byte × List Byte)
  | _, _, [] => []
  | k, s, (evs, pi) :: rest =>
    let r := ((start s).frun oc cfg w ord fill k evs).net
    ((r.line j).written, (r.line j).received) ::
      fsessions oc cfg w ord fill c j (k + evs.length) (r.restart c pi) rest

/-- The images of the inputs read after the restarts carry the frames of all devices, and cycles with
other images than those the application has fail because these cannot be decoded. -/
def GoodFailSessions (oc : Bool) (cfg : CouplerConfig) (w : Wiring) (ord : Nat → Imp.Orders)
    (fill : Nat → Nat → Byte) (c : Ur20.Src.ur20_fbc_mod_tcp.Coupler) :
    Nat → Src.LateNet → List (List LateSendFailEv × List Word) → Prop
  | _, _, [] => True
  | k, s, (evs, pi) :: rest => Spec.LateSend.OnlyUndecodable oc cfg (LateSendFailEv.others evs) ∧
      ((start s).frun oc cfg w ord fill k evs).net.Shows w pi ∧
      GoodFailSessions oc cfg w ord fill c (k + evs.length)
        (((start s).frun oc cfg w ord fill k evs).net.restart c pi) rest

end Src.LateSend

end Ur20.Spec
