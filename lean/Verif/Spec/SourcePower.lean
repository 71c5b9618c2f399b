import Verif.Spec.LostPower
import Verif.Spec.LostSource

/-!
# Specification: power failures of a station, for the translated source

As `Spec/PowerNet.lean` and `Spec/LostPower.lean`, for the system of `Spec/SourceNet.lean`.
-/

namespace Ur20.Spec

open Ur20.Src

/-- A coupler of the translated source and its devices, and for each module the number of the last
segment shown to it in a cycle after the two initialisation cycles, if any, since the application was
started. -/
structure Src.PowerNet where
  net : Src.Net
  shown : Nat → Option Nat

/-- The segment in the output image that the device of module `j` has not taken over, if it is not
empty. -/
def Src.Net.unread (w : Wiring) (s : Src.Net) (j : Nat) : List (List Byte) :=
  match outFrame (w.wire j).len (w.wire j).oo s.out with
  | some f => if f.txCnt = ((s.line j).ack + 1) % 4 ∧ f.data ≠ [] then [f.data] else []
  | none => []

namespace Src.PowerNet

/-- The number shown last, after a step that leads to `n`. -/
def note (s : Src.PowerNet) (n : Src.Net) (j : Nat) : NEv → Option Nat
  | .crash => none
  | _ =>
    if n.cycles = s.net.cycles + 1 ∧ 2 < n.cycles ∧ (s.net.line j).avail = true then
      some (s.net.line j).rxCnt
    else s.shown j

/-- The effect of a power failure. -/
def powered (s : Src.Net) (ack rxCnt : Nat → Fin 4) : Src.Net :=
  { s with
    out := List.replicate s.out.length 0#16
    line := fun j => { s.line j with
      ack := ack j, rxCnt := rxCnt j, avail := false, rxData := [], fresh := true } }

/-- The effect of one step. -/
noncomputable def step (oc : Bool) (cfg : CouplerConfig) (w : Wiring) (ord : Imp.Orders)
    (fill : Nat → Byte) (s : Src.PowerNet) : StationEv → Src.PowerNet
  | .ev e => ⟨s.net.step oc cfg w ord fill e, fun j => s.note (s.net.step oc cfg w ord fill e) j e⟩
  | .power a r => ⟨powered s.net a r, s.shown⟩

/-- A whole schedule; step number `k` uses `ord k` and `fill k`. -/
noncomputable def run (oc : Bool) (cfg : CouplerConfig) (w : Wiring) (ord : Nat → Imp.Orders)
    (fill : Nat → Nat → Byte) : Nat → Src.PowerNet → List StationEv → Src.PowerNet
  | _, s, [] => s
  | k, s, e :: evs => run oc cfg w ord fill (k + 1) (s.step oc cfg w (ord k) (fill k) e) evs

/-- Whenever the power fails, no cycle is in progress. -/
def BetweenCycles (oc : Bool) (cfg : CouplerConfig) (w : Wiring) (ord : Nat → Imp.Orders)
    (fill : Nat → Nat → Byte) : Nat → Src.PowerNet → List StationEv → Prop
  | _, _, [] => True
  | k, s, e :: evs => (match e with
      | .power _ _ => s.net.pending = none
      | .ev _ => True) ∧
    BetweenCycles oc cfg w ord fill (k + 1) (s.step oc cfg w (ord k) (fill k) e) evs

/-- After every power failure the first segment presented to module `j` has another number than the
last one shown before. -/
def NewNumbers (oc : Bool) (cfg : CouplerConfig) (w : Wiring) (ord : Nat → Imp.Orders)
    (fill : Nat → Nat → Byte) (j : Nat) : Nat → Src.PowerNet → List StationEv → Prop
  | _, _, [] => True
  | k, s, e :: evs => (match e with
      | .power _ r => s.shown j ≠ some (((r j).val + 1) % 4)
      | .ev _ => True) ∧
    NewNumbers oc cfg w ord fill j (k + 1) (s.step oc cfg w (ord k) (fill k) e) evs

/-- The segments of module `j` a step loses: a power failure loses the one the device has not taken
over. -/
noncomputable def lostIn (oc : Bool) (cfg : CouplerConfig) (w : Wiring) (ord : Imp.Orders)
    (fill : Nat → Byte) (s : Src.PowerNet) (j : Nat) : StationEv → List (List Byte)
  | .ev e => s.net.lostIn oc cfg w ord fill j e
  | .power _ _ => s.net.unread w j

/-- The segments of module `j` a schedule loses; step number `k` uses `ord k` and `fill k`. -/
noncomputable def lostSegments (oc : Bool) (cfg : CouplerConfig) (w : Wiring)
    (ord : Nat → Imp.Orders) (fill : Nat → Nat → Byte) (j : Nat) :
    Nat → Src.PowerNet → List StationEv → List (List Byte)
  | _, _, [] => []
  | k, s, e :: evs => s.lostIn oc cfg w (ord k) (fill k) j e ++
      lostSegments oc cfg w ord fill j (k + 1) (s.step oc cfg w (ord k) (fill k) e) evs

end Src.PowerNet

end Ur20.Spec
