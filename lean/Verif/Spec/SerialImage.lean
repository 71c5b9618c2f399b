import Verif.Spec.Image
import Verif.Spec.Coupler
import Verif.Spec.SerialDevice

/-!
# Specification: serial modules of a coupler

The frames of a serial module in the process images, the calls of a history that concern one
serial module, and a coupler connected to the device behind one of its serial modules.
-/

namespace Ur20.Spec

open Com

/-- `n` bytes of an image from byte `p` on. -/
def bytesAt (img : List Word) (p n : Nat) : List Byte :=
  (List.range n).filterMap fun k => byteAt img (p + k)

/-- The frame at input offset `o` of an input image; the offset is a bit number. -/
def inFrame (len : ProcessDataLength) (o : Word) (img : List Word) : Option RsIn :=
  match rsInFromBytes (bytesAt img (o.toNat / 8) len.byteCount) with
  | .ok f => some f
  | _ => none

/-- The frame at output offset `o` of an output image. -/
def outFrame (len : ProcessDataLength) (o : Word) (img : List Word) : Option RsOut :=
  match rsOutFromBytes (bytesAt img (outByte o) len.byteCount) with
  | .ok f => some f
  | _ => none

/-- Module `j` is a serial module with this frame size and both offsets at register boundaries. -/
def SerialAt (c : Coupler) (j : Nat) (len : ProcessDataLength) (oi oo : Word) : Prop :=
  ∃ cm, ModuleAt c j (.com cm) ⟨some oi, some oo⟩ ∧ cm.processDataLen = len ∧
    oi.toNat % 16 = 0 ∧ oo.toNat % 16 = 0 ∧ outputBase ≤ oo.toNat

/-- No other module is serial. -/
def OnlySerial (c : Coupler) (j : Nat) : Prop :=
  ∀ (k : Nat) m, c.modules[k]? = some m → IsSerial m → k = j

/-- Not a cycle. -/
def COp.IsCall : COp → Prop
  | .next _ _ => False
  | _ => True

/-- All cycles of a history succeed. -/
def CyclesSucceed (oc : Bool) : Coupler → List COp → Prop
  | _, [] => True
  | c, op :: ops =>
    (∀ pi po, op = .next pi po → ∃ img, (c.next oc pi po).2 = .ok img) ∧
    CyclesSucceed oc (op.apply oc c) ops

/-- The write a pending value amounts to. -/
def pendingWrite : Option ChannelValue → List Op
  | some (.bytes b) => [.write b]
  | _ => []

/-- The calls of a history that concern the serial module `j`, as calls on a processor of its own.
`w` is the value pending for channel 0 of the module. -/
def serialCalls (j : Nat) (inF : List Word → Option RsIn) (outF : List Word → Option RsOut) :
    Option ChannelValue → List COp → List Op
  | _, [] => []
  | w, .setOutput a v :: ops => serialCalls j inF outF (if a = ⟨j, 0⟩ then some v else w) ops
  | w, .next pi po :: ops =>
    pendingWrite w ++
    (match inF pi, outF po with
      | some i, some o => [.next i o]
      | _, _ => []) ++ serialCalls j inF outF none ops
  | w, .read n k :: ops => (if n = j then [.read k] else []) ++ serialCalls j inF outF w ops
  | w, .write n b :: ops => (if n = j then [.write b] else []) ++ serialCalls j inF outF w ops

/-- The value pending for channel 0 of module `j` after a history of successful cycles. -/
def pendingAfter (j : Nat) : Option ChannelValue → List COp → Option ChannelValue
  | w, [] => w
  | w, .setOutput a v :: ops => pendingAfter j (if a = ⟨j, 0⟩ then some v else w) ops
  | _, .next _ _ :: ops => pendingAfter j none ops
  | w, _ :: ops => pendingAfter j w ops

/-- The segment number in the output frame of the last cycle of a history, or `prev` if there was
none. -/
def lastCount (outF : List Word → Option RsOut) : Nat → List COp → Nat
  | prev, [] => prev
  | prev, .next _ po :: ops =>
    lastCount outF (match outF po with | some o => o.txCnt | none => prev) ops
  | prev, _ :: ops => lastCount outF prev ops

/-! ### A coupler and a serial device -/

/-- A coupler, its output image and the device behind one of its serial modules. The device is that
of `Sys`, but it sees whole process images. -/
structure Plant where
  c : Coupler
  /-- number of cycles -/
  cycles : Nat
  /-- the output image, as last transferred to the device -/
  out : List Word
  /-- the image returned by a cycle, not yet transferred -/
  pending : Option (List Word)
  /-- device: the last segment number it has taken over -/
  ack : Nat
  /-- device: number of the segment it presents -/
  rxCnt : Nat
  /-- device: whether it presents a segment -/
  avail : Bool
  /-- device: the segment it presents -/
  rxData : List Byte
  /-- everything ever written to the writer of the module -/
  written : List Byte
  /-- everything the device has taken over -/
  received : List Byte
  /-- the segments presented in some cycle after the two initialisation cycles, each counted once
  per presentation -/
  seen : List Byte
  /-- everything ever read from the reader of the module -/
  delivered : List Byte
  /-- the current presentation is not yet part of `seen` -/
  fresh : Bool

/-- One step of the schedule. -/
inductive PEv where
  /-- the application writes to the writer of the module -/
  | write (buf : List Byte)
  /-- the application reads from the reader of the module -/
  | read (n : Nat)
  /-- any other call that is not a cycle -/
  | other (op : COp)
  /-- a cycle with this input image and the output image last transferred -/
  | start (pi : List Word)
  /-- the returned image is transferred -/
  | finish
  /-- the device takes over a new segment, if there is one -/
  | take
  /-- the device presents a new segment, if the previous one has been acknowledged -/
  | post (segment : List Byte)
  /-- the device stops presenting an acknowledged segment -/
  | hide

/-- The call does not concern serial module `j` and is not a cycle. -/
def COp.Elsewhere (j : Nat) : COp → Prop
  | .setOutput a _ => a.module ≠ j
  | .next _ _ => False
  | .read n _ => n ≠ j
  | .write n _ => n ≠ j

instance (j : Nat) : DecidablePred (COp.Elsewhere j)
  | .setOutput a _ => inferInstanceAs (Decidable (a.module ≠ j))
  | .next _ _ => inferInstanceAs (Decidable False)
  | .read n _ => inferInstanceAs (Decidable (n ≠ j))
  | .write n _ => inferInstanceAs (Decidable (n ≠ j))

namespace Plant

/-- The frame the device puts into the input image; the two remaining flags are arbitrary. -/
def Presents (s : Plant) (f : RsIn) : Prop :=
  f.dataAvailable = s.avail ∧ f.rxCnt = s.rxCnt ∧ f.txCntAck = s.ack ∧ f.data = s.rxData

instance (s : Plant) (f : RsIn) : Decidable (s.Presents f) := by
  unfold Presents; infer_instance

/-- The effect of one step; steps that are not enabled have no effect. A cycle is enabled if the
input image carries the frame of the device, whatever else it carries, and if the cycle succeeds. -/
def step (oc : Bool) (j : Nat) (len : ProcessDataLength) (oi oo : Word) (s : Plant) : PEv → Plant
  | .write buf => { s with c := (s.c.writeBytes j buf).1, written := s.written ++ buf }
  | .read n => match s.c.read j n with
    | .ok (c', some bytes) => { s with c := c', delivered := s.delivered ++ bytes }
    | _ => s
  | .other op => if op.Elsewhere j then { s with c := op.apply oc s.c } else s
  | .start pi => match s.pending, inFrame len oi pi, s.c.next oc pi s.out with
    | none, some f, (c', .ok img) =>
      if s.Presents f then
        let s := { s with c := c', pending := some img, cycles := s.cycles + 1 }
        if 2 < s.cycles ∧ s.avail = true ∧ s.fresh = true then
          { s with seen := s.seen ++ s.rxData, fresh := false }
        else s
      else s
    | _, _, _ => s
  | .finish => match s.pending with
    | some img => { s with out := img, pending := none }
    | none => s
  | .take => match outFrame len oo s.out with
    | some f =>
      if f.txCnt = (s.ack + 1) % 4 then
        { s with ack := f.txCnt, received := s.received ++ f.data }
      else s
    | none => s
  | .post seg => match outFrame len oo s.out with
    | some f =>
      if f.rxCntAck = s.rxCnt then
        { s with rxCnt := (s.rxCnt + 1) % 4, avail := true, rxData := seg, fresh := true }
      else s
    | none => s
  | .hide => match outFrame len oo s.out with
    | some f => if f.rxCntAck = s.rxCnt then { s with avail := false } else s
    | none => s

/-- A whole schedule. -/
def run (oc : Bool) (j : Nat) (len : ProcessDataLength) (oi oo : Word) (s : Plant)
    (evs : List PEv) : Plant := evs.foldl (step oc j len oi oo) s

/-- A new coupler connected to a device in an arbitrary state, except that the output frame
carries no data and counters are below 4. -/
structure Initial (cfg : CouplerConfig) (j : Nat) (len : ProcessDataLength) (oi oo : Word)
    (s : Plant) : Prop where
  c : Coupler.new cfg = .ok s.c
  serial : SerialAt s.c j len oi oo
  disjoint : BytesKept (infos s.c) j
  cycles : s.cycles = 0
  out : ∃ f, outFrame len oo s.out = some f ∧ f.data = []
  pending : s.pending = none
  ack : s.ack < 4
  rxCnt : s.rxCnt < 4
  logs : s.written = [] ∧ s.received = [] ∧ s.seen = [] ∧ s.delivered = [] ∧ s.fresh = true

end Plant

end Ur20.Spec
