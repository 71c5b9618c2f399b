import Verif.Props.LostPower
import Verif.Props.LostSource
import Verif.Spec.SourcePower

/-!
# C145: power failures of a station, for the translated source

The guarantees of C124 and C143, stated of the functions of the translated source (`Verif/Source`)
only.
-/

namespace Ur20

open Spec

open scoped List

namespace Src

/-- The system with the translated source and the one with the model are in the same state. -/
structure SamePower (s : Spec.Src.PowerNet) (t : Spec.PowerNet) : Prop where
  net : SameNet s.net t.net
  shown : s.shown = t.shown

theorem SamePower.step {s : Spec.Src.PowerNet} {t : Spec.PowerNet} (h : SamePower s t) (oc : Bool)
    (cfg : CouplerConfig) (w : Wiring) (hw : w.modules ≠ []) (ord : Imp.Orders) (fill : Nat → Byte)
    (e : StationEv) : SamePower (s.step oc cfg w ord fill e) (t.step oc cfg w e) := by
  cases e with
  | ev e =>
    have h1 := h.net.step oc cfg w hw ord fill e
    refine ⟨h1, ?_⟩
    funext j
    cases e <;> first
      | rfl
      | (simp only [Spec.Src.PowerNet.step, Spec.PowerNet.step, Spec.Src.PowerNet.note,
          Spec.PowerNet.note]
         rw [h1.cycles, h.net.cycles, h.net.line, h.shown])
  | power a r =>
    refine ⟨⟨h.net.c, h.net.cycles, ?_, h.net.pending, ?_⟩, h.shown⟩
    · show List.replicate s.net.out.length 0#16 = List.replicate t.net.out.length 0#16
      rw [h.net.out]
    · funext j
      simp only [Spec.Src.PowerNet.step, Spec.PowerNet.step, Spec.Src.PowerNet.powered,
        Spec.PowerNet.powered]
      rw [h.net.line]

section

variable {oc : Bool} {cfg : CouplerConfig} {w : Wiring} (hw : w.modules ≠ [])
  (ord : Nat → Imp.Orders) (fill : Nat → Nat → Byte)

include hw

theorem SamePower.run (evs : List StationEv) :
    ∀ (k : Nat) {s : Spec.Src.PowerNet} {t : Spec.PowerNet}, SamePower s t →
      SamePower (s.run oc cfg w ord fill k evs) (t.run oc cfg w evs) := by
  induction evs with
  | nil => intro k s t h; exact h
  | cons e evs ih => intro k s t h; exact ih (k + 1) (h.step oc cfg w hw (ord k) (fill k) e)

theorem SamePower.betweenCycles (evs : List StationEv) :
    ∀ (k : Nat) {s : Spec.Src.PowerNet} {t : Spec.PowerNet}, SamePower s t →
      (s.BetweenCycles oc cfg w ord fill k evs ↔ t.BetweenCycles oc cfg w evs) := by
  induction evs with
  | nil => intro k s t h; exact Iff.rfl
  | cons e evs ih =>
    intro k s t h
    refine and_congr ?_ (ih (k + 1) (h.step oc cfg w hw (ord k) (fill k) e))
    cases e with
    | ev e => exact Iff.rfl
    | power a r => simp only [h.net.pending]

theorem SamePower.newNumbers (j : Nat) (evs : List StationEv) :
    ∀ (k : Nat) {s : Spec.Src.PowerNet} {t : Spec.PowerNet}, SamePower s t →
      (s.NewNumbers oc cfg w ord fill j k evs ↔ t.NewNumbers oc cfg w j evs) := by
  induction evs with
  | nil => intro k s t h; exact Iff.rfl
  | cons e evs ih =>
    intro k s t h
    refine and_congr ?_ (ih (k + 1) (h.step oc cfg w hw (ord k) (fill k) e))
    cases e with
    | ev e => exact Iff.rfl
    | power a r => simp only [h.shown]

theorem SamePower.lostSegments (j : Nat) (evs : List StationEv) :
    ∀ (k : Nat) {s : Spec.Src.PowerNet} {t : Spec.PowerNet}, SamePower s t →
      s.lostSegments oc cfg w ord fill j k evs = t.lostSegments oc cfg w j evs := by
  induction evs with
  | nil => intro k s t h; rfl
  | cons e evs ih =>
    intro k s t h
    have h1 : s.lostIn oc cfg w (ord k) (fill k) j e = t.lostIn oc cfg w j e := by
      cases e with
      | ev e => exact h.net.lostIn oc cfg w hw (ord k) (fill k) j e
      | power a r =>
        simp only [Spec.Src.PowerNet.lostIn, Spec.PowerNet.lostIn, Spec.Src.Net.unread,
          Spec.Net.unread]
        rw [h.net.out, h.net.line]
        rfl
    simp only [Spec.Src.PowerNet.lostSegments, Spec.PowerNet.lostSegments]
    rw [h1, ih (k + 1) (h.step oc cfg w hw (ord k) (fill k) e)]

end

end Src

section

variable (oc : Bool) (cfg : CouplerConfig) (w : Wiring) (ord : Nat → Imp.Orders)
  (fill : Nat → Nat → Byte) (s : Spec.Src.Net) (h : s.Initial oc cfg w) (evs : List StationEv)

include h

/-- C145: if the power of the station fails between cycles only, then whatever cycles fail, whatever
images are lost and wherever the application crashes, the bytes written to a module, or set on it and
taken by a cycle, divide into pieces in this order. Those that are kept are what the device has taken
over, what is in flight and what is queued; those that are not kept are the segments the schedule
loses. Each of these fits into a frame, and without crashes there are not more of them than lost
images, failing cycles and power failures. -/
theorem C145_exact
    (hb : (⟨s, fun _ => none⟩ : Spec.Src.PowerNet).BetweenCycles oc cfg w ord fill 0 evs)
    (j : Nat) (hj : j ∈ w.modules) :
    let r := ((⟨s, fun _ => none⟩ : Spec.Src.PowerNet).run oc cfg w ord fill 0 evs).net
    let lost := (⟨s, fun _ => none⟩ : Spec.Src.PowerNet).lostSegments oc cfg w ord fill j 0 evs
    (∃ l : Pieces, l.all = (r.line j).written ∧
      l.kept = (r.line j).received ++ r.inFlight w j ++ r.queued j ∧ l.gone ~ lost) ∧
    (∀ seg ∈ lost, 1 ≤ seg.length ∧ seg.length ≤ capacity (w.wire j).len) ∧
    (KeepsGoing evs → lost.length ≤ lostOrFailedP evs) := by
  obtain ⟨t, ht, hs⟩ := Src.net_initial h
  have hw := List.ne_nil_of_mem hj
  have h0 : Src.SamePower ⟨s, fun _ => none⟩ ⟨t, fun _ => none⟩ := ⟨hs, rfl⟩
  have hr := (Src.SamePower.run (oc := oc) (cfg := cfg) hw ord fill evs 0 h0).net
  have := C143_exact oc cfg w t ht evs
    ((Src.SamePower.betweenCycles hw ord fill evs 0 h0).1 hb) j hj
  simp only at this ⊢
  rwa [hr.line, hr.inFlight, (hr.processors j).1,
    Src.SamePower.lostSegments (oc := oc) (cfg := cfg) hw ord fill j evs 0 h0]

/-- C145: after any such history, rounds of a cycle in which every device looks at the image deliver
everything that is in flight, queued or waiting, on all modules at once. -/
theorem C145_delivered (hv : AcceptedValuesP cfg evs)
    (hb : (⟨s, fun _ => none⟩ : Spec.Src.PowerNet).BetweenCycles oc cfg w ord fill 0 evs) :
    let r := ((⟨s, fun _ => none⟩ : Spec.Src.PowerNet).run oc cfg w ord fill 0 evs).net
    r.pending = none → OutputsReady cfg r.out → 2 ≤ r.cycles →
    ∀ pis, r.GoodInputs oc cfg w ord fill evs.length pis →
      (∀ j ∈ w.modules, 1 + r.segments j + ((sentBytes (r.line j).waiting).length +
        capacity (w.wire j).len - 1) / capacity (w.wire j).len ≤ pis.length) →
      ∀ j ∈ w.modules, ((r.rounds oc cfg w ord fill evs.length pis).line j).received =
        (r.line j).received ++ r.inFlight w j ++ r.queued j ++ sentBytes (r.line j).waiting := by
  intro r hp ho hc pis hg hn j hj
  obtain ⟨t, ht, hs⟩ := Src.net_initial h
  have hw := List.ne_nil_of_mem hj
  have h0 : Src.SamePower ⟨s, fun _ => none⟩ ⟨t, fun _ => none⟩ := ⟨hs, rfl⟩
  have hr := (Src.SamePower.run (oc := oc) (cfg := cfg) hw ord fill evs 0 h0).net
  have h2 := hr.rounds (oc := oc) (cfg := cfg) hw ord fill evs.length pis
  have := C124_delivered oc cfg w t ht evs hv
    ((Src.SamePower.betweenCycles hw ord fill evs 0 h0).1 hb) (by rw [← hr.pending]; exact hp)
    (by rw [← hr.out]; exact ho) (by rw [← hr.cycles]; exact hc) pis
    ((Src.SameNet.goodInputs hw ord fill pis _ hr).1 hg)
    (fun j hj => by rw [← (hr.processors j).2.1, ← hr.line]; exact hn j hj) j hj
  rw [h2.line, this, ← hr.line, ← hr.inFlight, ← (hr.processors j).1]

/-- C145: whatever happens, even if the power fails in the middle of a cycle, what is read from a
module comes from its own device, each segment at most once and in order. -/
theorem C145_receive_order (j : Nat) (hj : j ∈ w.modules) :
    let r := ((⟨s, fun _ => none⟩ : Spec.Src.PowerNet).run oc cfg w ord fill 0 evs).net
    (r.line j).delivered ++ r.buffered j <+ (r.line j).seen := by
  obtain ⟨t, ht, hs⟩ := Src.net_initial h
  have hw := List.ne_nil_of_mem hj
  have h0 : Src.SamePower ⟨s, fun _ => none⟩ ⟨t, fun _ => none⟩ := ⟨hs, rfl⟩
  have hr := (Src.SamePower.run (oc := oc) (cfg := cfg) hw ord fill evs 0 h0).net
  have := C124_receive_order oc cfg w t ht evs j hj
  simp only at this ⊢
  rwa [hr.line, (hr.processors j).2.2]

/-- C145: if the power fails between cycles only, the application does not crash and the first
segment of a device after a power failure has another number than the last one shown before, what is
read from its module is exactly what the device has shown. -/
theorem C145_receive (hc : KeepsGoing evs)
    (hb : (⟨s, fun _ => none⟩ : Spec.Src.PowerNet).BetweenCycles oc cfg w ord fill 0 evs)
    (j : Nat) (hj : j ∈ w.modules)
    (hn : (⟨s, fun _ => none⟩ : Spec.Src.PowerNet).NewNumbers oc cfg w ord fill j 0 evs) :
    let r := ((⟨s, fun _ => none⟩ : Spec.Src.PowerNet).run oc cfg w ord fill 0 evs).net
    (r.line j).delivered ++ r.buffered j = (r.line j).seen := by
  obtain ⟨t, ht, hs⟩ := Src.net_initial h
  have hw := List.ne_nil_of_mem hj
  have h0 : Src.SamePower ⟨s, fun _ => none⟩ ⟨t, fun _ => none⟩ := ⟨hs, rfl⟩
  have hr := (Src.SamePower.run (oc := oc) (cfg := cfg) hw ord fill evs 0 h0).net
  have := C124_receive oc cfg w t ht evs hc
    ((Src.SamePower.betweenCycles hw ord fill evs 0 h0).1 hb) j hj
    ((Src.SamePower.newNumbers hw ord fill j evs 0 h0).1 hn)
  simp only at this ⊢
  rwa [hr.line, (hr.processors j).2.2]

end

/-! ### An example -/

section

variable (ord : Nat → Imp.Orders) (fill : Nat → Nat → Byte)

theorem exSourcePower_same : Src.SamePower ⟨exSourceNet, fun _ => none⟩ ⟨exNet, fun _ => none⟩ :=
  ⟨exSourceNet_same, rfl⟩

theorem exSourcePower_between : (⟨exSourceNet, fun _ => none⟩ : Spec.Src.PowerNet).BetweenCycles
    true exDuo exWires ord fill 0 exPowerEvs := by
  rw [Src.SamePower.betweenCycles (by decide) ord fill exPowerEvs 0 exSourcePower_same]
  simp only [exPowerEvs, PowerNet.BetweenCycles, true_and, and_true]
  decide +kernel

/-- The schedule of the example of C124 loses the six bytes in flight, whatever the orders of
iteration and the buffers … -/
example : (⟨exSourceNet, fun _ => none⟩ : Spec.Src.PowerNet).lostSegments true exDuo exWires ord fill
    1 0 exPowerEvs = [[1#8, 2#8, 3#8, 4#8, 5#8, 6#8]] := by
  rw [Src.SamePower.lostSegments (by decide) ord fill 1 exPowerEvs 0 exSourcePower_same]
  simp only [exPowerEvs, PowerNet.lostSegments, PowerNet.lostIn, Net.lostIn]
  decide +kernel

example := C145_exact true exDuo exWires ord fill exSourceNet exSourceNet_initial exPowerEvs
  (exSourcePower_between ord fill) 1 (by decide)

/-- … and both segments of the second device are received. -/
example : (((⟨exSourceNet, fun _ => none⟩ : Spec.Src.PowerNet).run true exDuo exWires ord fill 0
    exPowerEvs).net.line 2).seen = [0x41#8, 0x42#8] := by
  rw [(Src.SamePower.run (oc := true) (cfg := exDuo) (by decide) ord fill exPowerEvs 0
    exSourcePower_same).net.line]
  decide +kernel

example := C145_receive true exDuo exWires ord fill exSourceNet exSourceNet_initial exPowerEvs
  (by intro e he; rintro rfl; simp [exPowerEvs] at he) (exSourcePower_between ord fill) 2 (by decide)
  (by
    rw [Src.SamePower.newNumbers (by decide) ord fill 2 exPowerEvs 0 exSourcePower_same]
    simp only [exPowerEvs, PowerNet.NewNumbers, true_and, and_true]
    decide +kernel)

/-- After the power failure two more bytes are written; two rounds bring them to the device, whatever the
orders of iteration and the buffers. -/
example : let r := ((⟨exSourceNet, fun _ => none⟩ : Spec.Src.PowerNet).run true exDuo exWires ord fill 0
      exPowerMore).net
    ((r.rounds true exDuo exWires ord fill exPowerMore.length exPowerInputs).line 1).received =
      [7#8, 8#8, 9#8] := by
  have hw : exWires.modules ≠ [] := by decide
  have hr : Src.SameNet ((⟨exSourceNet, fun _ => none⟩ : Spec.Src.PowerNet).run true exDuo exWires ord
      fill 0 exPowerMore).net exPowerMoreNet :=
    (Src.SamePower.run hw ord fill exPowerMore 0 exSourcePower_same).net
  obtain ⟨g1, g2, g3, g4⟩ := exPowerMoreNet_good
  have := C145_delivered true exDuo exWires ord fill exSourceNet exSourceNet_initial exPowerMore
    exPowerMore_calm.1
    ((Src.SamePower.betweenCycles hw ord fill exPowerMore 0 exSourcePower_same).2 exPowerMore_calm.2)
    (hr.pending.trans g1) (by rw [hr.out]; exact g2) (by rw [hr.cycles, g3]; decide) exPowerInputs
    ((Src.SameNet.goodInputs hw ord fill exPowerInputs exPowerMore.length hr).2 g4) (by
      intro j hj
      simp only [exWires, List.mem_cons, List.not_mem_nil, or_false] at hj
      rw [(hr.processors j).2.1, hr.line]
      rcases hj with rfl | rfl <;> exact (by decide +kernel)) 1 (by decide)
  rw [hr.line, hr.inFlight, (hr.processors 1).1] at this
  exact this.trans (by decide +kernel)

end

end Ur20
