import Verif.Spec.Station

/-!
# Specification: how fast a serial module sends

When nothing is left to be sent, and how many cycles the bytes of a sequence of writes take.
-/

namespace Ur20.Spec

open Com

/-- Nothing is left to be sent: the device has taken over the segment in the output image, and the
transmit queue of the module is empty. -/
def Plant.Idle (s : Plant) (j : Nat) (len : ProcessDataLength) (oo : Word) : Prop :=
  (∃ f, outFrame len oo s.out = some f ∧ f.txCnt ≠ (s.ack + 1) % 4) ∧
    ∃ p, s.c.processors j = some p ∧ p.outData = []

/-- The state after writing these buffers one after the other. -/
def Plant.writes (oc : Bool) (j : Nat) (len : ProcessDataLength) (oi oo : Word) (s : Plant)
    (bufs : List (List Byte)) : Plant :=
  s.run oc j len oi oo (bufs.map .write)

/-- The number of frames that the buffers need, at `cap` bytes per frame; no frame carries bytes of
two buffers. -/
def framesNeeded (cap : Nat) (bufs : List (List Byte)) : Nat :=
  (bufs.map fun b => (b.length + cap - 1) / cap).sum

/-- The device presents a segment, there is a complete cycle, and the device looks at the image. -/
def Plant.duplex (oc : Bool) (j : Nat) (len : ProcessDataLength) (oi oo : Word) (s : Plant)
    (r : List Byte × List Word) : Plant :=
  s.run oc j len oi oo [.post r.1, .start r.2, .finish, .take]

/-- Several such rounds. -/
def Plant.duplexes (oc : Bool) (j : Nat) (len : ProcessDataLength) (oi oo : Word) (s : Plant)
    (rs : List (List Byte × List Word)) : Plant := rs.foldl (Plant.duplex oc j len oi oo) s

/-- The input images are complete and carry the frame of the device with the segment it presents. -/
def Plant.GoodDuplex (oc : Bool) (cfg : CouplerConfig) (j : Nat) (len : ProcessDataLength)
    (oi oo : Word) : Plant → List (List Byte × List Word) → Prop
  | _, [] => True
  | s, r :: rs => InputsReady cfg r.2 ∧
    (∃ f, inFrame len oi r.2 = some f ∧ (s.step oc j len oi oo (.post r.1)).Presents f) ∧
    GoodDuplex oc cfg j len oi oo (s.duplex oc j len oi oo r) rs

end Ur20.Spec
