import Verif.Props.LostNet
import Verif.Props.SourceNet
import Verif.Spec.LostSource

/-!
# C142 for the translated source
-/

namespace Ur20

open Spec

open Src.ur20_fbc_mod_tcp (embed)

open scoped List

namespace Src

theorem SameNet.queue {s : Spec.Src.Net} {t : Spec.Net} (h : SameNet s t) (j : Nat) :
    s.queue j = t.queue j := by
  obtain ⟨i, hi, hs⟩ := h.c
  have e : r_get s.c.processors j = t.c.processors j := by
    rw [hi]; exact hs.processors j
  unfold Spec.Src.Net.queue Spec.Net.queue
  rw [e]
  rfl

theorem SameNet.newSegment {s : Spec.Src.Net} {t : Spec.Net} (h : SameNet s t) (w : Wiring)
    (j : Nat) : s.newSegment w j = t.newSegment w j := by
  unfold Spec.Src.Net.newSegment Spec.Net.newSegment
  rw [h.out, h.pending]
  rfl

theorem SameNet.lostIn {s : Spec.Src.Net} {t : Spec.Net} (h : SameNet s t) (oc : Bool)
    (cfg : CouplerConfig) (w : Wiring) (hw : w.modules ≠ []) (ord : Imp.Orders) (fill : Nat → Byte)
    (j : Nat) (e : NEv) : s.lostIn oc cfg w ord fill j e = t.lostIn oc cfg w j e := by
  cases e with
  | lost => exact h.newSegment w j
  | crash =>
    simp only [Spec.Src.Net.lostIn, Spec.Net.lostIn]
    rw [h.newSegment, h.queue]
  | failing pi =>
    have h1 := h.step oc cfg w hw ord fill (.failing pi)
    simp only [Spec.Src.Net.lostIn, Spec.Net.lostIn]
    rw [h1.cycles, h.cycles, (h1.processors j).1, (h.processors j).1, h.line]
  | finish =>
    simp only [Spec.Src.Net.lostIn, Spec.Net.lostIn]
    rw [h.out, h.pending, h.line]
    rfl
  | _ => rfl

theorem SameNet.lostSegments {oc : Bool} {cfg : CouplerConfig} {w : Wiring} (hw : w.modules ≠ [])
    (ord : Nat → Imp.Orders) (fill : Nat → Nat → Byte) (j : Nat) (evs : List NEv) :
    ∀ (k : Nat) {s : Spec.Src.Net} {t : Spec.Net}, SameNet s t →
      s.lostSegments oc cfg w ord fill j k evs = t.lostSegments oc cfg w j evs := by
  induction evs with
  | nil => intro k s t h; rfl
  | cons e evs ih =>
    intro k s t h
    simp only [Spec.Src.Net.lostSegments, Spec.Net.lostSegments]
    rw [h.lostIn oc cfg w hw (ord k) (fill k) j e,
      ih (k + 1) (h.step oc cfg w hw (ord k) (fill k) e)]

end Src

/-- C142 for the translated source, whatever the orders in which hash maps are iterated: the bytes
written to a module, or set on it and taken by a cycle, divide into pieces in this order. Those that
are kept are what the device has taken over, what is in flight and what is queued; those that are not
kept are the segments the schedule loses. -/
theorem C142_source (oc : Bool) (cfg : CouplerConfig) (w : Wiring) (ord : Nat → Imp.Orders)
    (fill : Nat → Nat → Byte) (s : Spec.Src.Net) (h : s.Initial oc cfg w) (evs : List NEv)
    (j : Nat) (hj : j ∈ w.modules) :
    let r := s.run oc cfg w ord fill 0 evs
    let lost := s.lostSegments oc cfg w ord fill j 0 evs
    (∃ l : Pieces, l.all = (r.line j).written ∧
      l.kept = (r.line j).received ++ r.inFlight w j ++ r.queued j ∧ l.gone ~ lost) ∧
    (∀ seg ∈ lost, 1 ≤ seg.length ∧ seg.length ≤ capacity (w.wire j).len) ∧
    (NoCrashesN evs → lost.length ≤ lostOrFailedN evs) := by
  obtain ⟨t, ht, hs⟩ := Src.net_initial h
  have hw := List.ne_nil_of_mem hj
  have hr := Src.SameNet.run (oc := oc) (cfg := cfg) hw ord fill evs 0 hs
  have := C142_exact oc cfg w t ht evs j hj
  simp only at this ⊢
  rwa [hr.line, hr.inFlight, (hr.processors j).1,
    Src.SameNet.lostSegments (oc := oc) (cfg := cfg) hw ord fill j evs 0 hs]

/-- One segment is lost with an image, whatever the orders of iteration and the buffers. -/
example (ord : Nat → Imp.Orders) (fill : Nat → Nat → Byte) :
    exSourceNet.lostSegments true exDuo exWires ord fill 1 0 exDuoLosses =
      [[1#8, 2#8, 3#8, 4#8, 5#8, 6#8]] := by
  rw [Src.SameNet.lostSegments (by decide) ord fill 1 exDuoLosses 0 exSourceNet_same]
  simp only [exDuoLosses, exDuoEvs, List.cons_append, List.nil_append, Net.lostSegments, Net.lostIn]
  decide +kernel

example (ord : Nat → Imp.Orders) (fill : Nat → Nat → Byte) :=
  C142_source true exDuo exWires ord fill exSourceNet exSourceNet_initial exDuoLosses 1 (by decide)

end Ur20
