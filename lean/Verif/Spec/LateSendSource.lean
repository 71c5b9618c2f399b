import Verif.Spec.LateSource
import Verif.Spec.LateSend

/-!
# Specification: the system of `Spec/LateSend.lean` with a coupler of the translated source
-/

namespace Ur20.Spec

open Ur20.Src

/-- The system, and for every module the value set on it that no cycle has taken yet. -/
structure Src.LateSend where
  net : Src.LateNet
  pend : Nat → Option ChannelValue

namespace Src.LateSend

/-- No value is set. -/
def start (s : Src.LateNet) : Src.LateSend := ⟨s, fun _ => none⟩

/-- The values that are set count as written. -/
def taken (pend : Nat → Option ChannelValue) (n : Src.LateNet) : Src.LateNet :=
  { n with line := fun j =>
    { n.line j with written := (n.line j).written ++ sentBytes (pend j) } }

/-- The effect of one step. A cycle that succeeds is counted in `cycles`, and takes the values. -/
noncomputable def step (oc : Bool) (w : Wiring) (ord : Imp.Orders) (fill : Nat → Byte)
    (s : Src.LateSend) : LateSendEv → Src.LateSend
  | .set j v =>
    if j ∈ w.modules then
      ⟨{ s.net with c := (Src.call oc s.net.c ord fill (.setOutput ⟨j, 0⟩ v)).1 },
        fun i => if i = j then some v else s.pend i⟩
    else s
  | .ev e =>
    if (s.net.step oc w ord fill e).cycles = s.net.cycles then ⟨s.net.step oc w ord fill e, s.pend⟩
    else start (taken s.pend (s.net.step oc w ord fill e))

/-- A whole schedule; step number `k` uses `ord k` and `fill k`. -/
noncomputable def run (oc : Bool) (w : Wiring) (ord : Nat → Imp.Orders) (fill : Nat → Nat → Byte) :
    Nat → Src.LateSend → List LateSendEv → Src.LateSend
  | _, s, [] => s
  | k, s, e :: evs => run oc w ord fill (k + 1) (s.step oc w (ord k) (fill k) e) evs

/-- A round without losses and delays. -/
def roundEvents (w : Wiring) (pi : List Word) : List LateSendEv :=
  (Src.LateNet.roundEvents w pi).map .ev

/-- Several rounds, the first of which begins with step number `k`. -/
noncomputable def rounds (oc : Bool) (w : Wiring) (ord : Nat → Imp.Orders) (fill : Nat → Nat → Byte)
    (k : Nat) (s : Src.LateSend) (pis : List (List Word)) : Src.LateSend :=
  s.run oc w ord fill k (pis.flatMap (roundEvents w))

/-- The image of the inputs of each round is complete and carries the frames of all devices. -/
def GoodInputs (oc : Bool) (cfg : CouplerConfig) (w : Wiring) (ord : Nat → Imp.Orders)
    (fill : Nat → Nat → Byte) : Nat → Src.LateSend → List (List Word) → Prop
  | _, _, [] => True
  | k, s, pi :: pis => InputsReady cfg pi ∧ s.net.Shows w pi ∧
    GoodInputs oc cfg w ord fill (k + (roundEvents w pi).length)
      (s.run oc w ord fill k (roundEvents w pi)) pis

/-- Runs of the application with a restart after each of them: what was written to module `j` and what
its device has taken over in each. The first step has number `k`. -/
noncomputable def sessions (oc : Bool) (w : Wiring) (ord : Nat → Imp.Orders) (fill : Nat → Nat → Byte)
    (c : Ur20.Src.ur20_fbc_mod_tcp.Coupler) (j : Nat) :
    Nat → Src.LateNet → List (List LateSendEv × List Word) → List (List Byte × List Byte)
  | _, _, [] => []
  | k, s, (evs, pi) :: rest =>
    let r := ((start s).run oc w ord fill k evs).net
    ((r.line j).written, (r.line j).received) ::
      sessions oc w ord fill c j (k + evs.length) (r.restart c pi) rest

/-- The images of the inputs read after the restarts carry the frames of all devices, and cycles that
fail do so because their images cannot be decoded. -/
def GoodSessions (oc : Bool) (cfg : CouplerConfig) (w : Wiring) (ord : Nat → Imp.Orders)
    (fill : Nat → Nat → Byte) (c : Ur20.Src.ur20_fbc_mod_tcp.Coupler) :
    Nat → Src.LateNet → List (List LateSendEv × List Word) → Prop
  | _, _, [] => True
  | k, s, (evs, pi) :: rest => Spec.LateSend.OnlyUndecodable oc cfg evs ∧
      ((start s).run oc w ord fill k evs).net.Shows w pi ∧
      GoodSessions oc cfg w ord fill c (k + evs.length)
        (((start s).run oc w ord fill k evs).net.restart c pi) rest

end Src.LateSend

end Ur20.Spec
