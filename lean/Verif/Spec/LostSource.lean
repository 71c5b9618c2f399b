import Verif.Spec.LostNet
import Verif.Spec.SourceNet

/-!
# Specification: which segments are lost, for the translated source

As `Spec/LostNet.lean`, for the system of `Spec/SourceNet.lean`.
-/

namespace Ur20.Spec

open Ur20.Src

namespace Src.Net

/-- The segments in the transmit queue of module `j`. -/
def queue (s : Src.Net) (j : Nat) : List (List Byte) :=
  match r_get s.c.processors j with
  | some p => p.outData
  | none => []

/-- The segment for module `j` in an image that has been returned but not transferred, if it is a
new one. -/
def newSegment (w : Wiring) (s : Src.Net) (j : Nat) : List (List Byte) :=
  match outFrame (w.wire j).len (w.wire j).oo s.out,
    s.pending.bind (outFrame (w.wire j).len (w.wire j).oo) with
  | some o, some r => if r.txCnt ≠ o.txCnt then [r.data] else []
  | _, _ => []

/-- The segments of module `j` a step loses, as in `Spec.Net.lostIn`. -/
noncomputable def lostIn (oc : Bool) (cfg : CouplerConfig) (w : Wiring) (ord : Imp.Orders)
    (fill : Nat → Byte) (s : Src.Net) (j : Nat) : NEv → List (List Byte)
  | .lost => s.newSegment w j
  | .crash => s.newSegment w j ++ s.queue j
  | .failing pi =>
    let t := s.step oc cfg w ord fill (.failing pi)
    let before := s.queued j ++ sentBytes (s.line j).waiting
    if t.cycles = s.cycles + 1 ∧ (t.queued j).length < before.length then
      [before.take (before.length - (t.queued j).length)]
    else []
  | .finish =>
    match outFrame (w.wire j).len (w.wire j).oo s.out,
      s.pending.bind (outFrame (w.wire j).len (w.wire j).oo) with
    | some o, some r =>
      if o.txCnt = ((s.line j).ack + 1) % 4 ∧ r.txCnt = o.txCnt ∧ r.data ≠ o.data then [o.data]
      else []
    | _, _ => []
  | _ => []

/-- The segments of module `j` a schedule loses; step number `k` uses `ord k` and `fill k`. -/
noncomputable def lostSegments (oc : Bool) (cfg : CouplerConfig) (w : Wiring)
    (ord : Nat → Imp.Orders) (fill : Nat → Nat → Byte) (j : Nat) :
    Nat → Src.Net → List NEv → List (List Byte)
  | _, _, [] => []
  | k, s, e :: evs => s.lostIn oc cfg w (ord k) (fill k) j e ++
      lostSegments oc cfg w ord fill j (k + 1) (s.step oc cfg w (ord k) (fill k) e) evs

end Src.Net

end Ur20.Spec
