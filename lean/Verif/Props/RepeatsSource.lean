import Verif.Props.Repeats
import Verif.Props.SourcePower
import Verif.Spec.RepeatsSource

/-!
# C147 for the translated source
-/

namespace Ur20

open Spec
open scoped List

namespace Src

theorem SamePower.midCycle {oc : Bool} {cfg : CouplerConfig} {w : Wiring} (hw : w.modules ≠ [])
    (ord : Nat → Imp.Orders) (fill : Nat → Nat → Byte) (evs : List StationEv) :
    ∀ (k : Nat) {s : Spec.Src.PowerNet} {t : Spec.PowerNet}, SamePower s t →
      s.midCycle oc cfg w ord fill k evs = t.midCycle oc cfg w evs := by
  induction evs with
  | nil => intro k s t h; rfl
  | cons e evs ih =>
    intro k s t h
    simp only [Spec.Src.PowerNet.midCycle, Spec.PowerNet.midCycle]
    rw [ih (k + 1) (h.step oc cfg w hw (ord k) (fill k) e), h.net.pending]
    cases e <;> rfl

end Src

/-- C147 for the translated source, whatever the orders in which hash maps are iterated: what a device
has taken over are segments of what was sent, in this order, each at most once apart from repetitions
that directly follow it; what is queued was sent after them; and there are not more repetitions than
power failures in the middle of a cycle. -/
theorem C147_source (oc : Bool) (cfg : CouplerConfig) (w : Wiring) (ord : Nat → Imp.Orders)
    (fill : Nat → Nat → Byte) (s : Spec.Src.Net) (h : s.Initial oc cfg w) (evs : List StationEv)
    (j : Nat) (hj : j ∈ w.modules) :
    let r := ((⟨s, fun _ => none⟩ : Spec.Src.PowerNet).run oc cfg w ord fill 0 evs).net
    ∃ l : Repeated, l.all = (r.line j).received ∧ l.once ++ r.queued j <+ (r.line j).written ∧
      l.repeats ≤ (⟨s, fun _ => none⟩ : Spec.Src.PowerNet).midCycle oc cfg w ord fill 0 evs ∧
      ∀ p ∈ l, p.1.length ≤ capacity (w.wire j).len := by
  obtain ⟨t, ht, hs⟩ := Src.net_initial h
  have hw := List.ne_nil_of_mem hj
  have h0 : Src.SamePower ⟨s, fun _ => none⟩ ⟨t, fun _ => none⟩ := ⟨hs, rfl⟩
  have hr := (Src.SamePower.run (oc := oc) (cfg := cfg) hw ord fill evs 0 h0).net
  have := C147_repeats oc cfg w t ht evs j hj
  simp only at this ⊢
  rwa [hr.line, (hr.processors j).1,
    Src.SamePower.midCycle (oc := oc) (cfg := cfg) hw ord fill evs 0 h0]

/-- C147 for the translated source: after any such history, rounds of a cycle in which every device
looks at the image deliver everything that is in flight, queued or waiting, on all modules at once. -/
theorem C147_source_delivered (oc : Bool) (cfg : CouplerConfig) (w : Wiring)
    (ord : Nat → Imp.Orders) (fill : Nat → Nat → Byte) (s : Spec.Src.Net) (h : s.Initial oc cfg w)
    (evs : List StationEv) (hv : AcceptedValuesP cfg evs) :
    let r := ((⟨s, fun _ => none⟩ : Spec.Src.PowerNet).run oc cfg w ord fill 0 evs).net
    r.pending = none → OutputsReady cfg r.out → 2 ≤ r.cycles →
    ∀ pis, r.GoodInputs oc cfg w ord fill evs.length pis →
      (∀ j ∈ w.modules, 1 + r.segments j + ((sentBytes (r.line j).waiting).length +
        capacity (w.wire j).len - 1) / capacity (w.wire j).len ≤ pis.length) →
      ∀ j ∈ w.modules, ((r.rounds oc cfg w ord fill evs.length pis).line j).received =
        (r.line j).received ++ r.inFlight w j ++ r.queued j ++ sentBytes (r.line j).waiting := by
  intro r hp ho hc pis hg hn j hj
  obtain ⟨t, ht, hs⟩ := Src.net_initial h
  have hw := List.ne_nil_of_mem hj
  have h0 : Src.SamePower ⟨s, fun _ => none⟩ ⟨t, fun _ => none⟩ := ⟨hs, rfl⟩
  have hr := (Src.SamePower.run (oc := oc) (cfg := cfg) hw ord fill evs 0 h0).net
  have h2 := hr.rounds (oc := oc) (cfg := cfg) hw ord fill evs.length pis
  have := C147_delivered oc cfg w t ht evs hv (by rw [← hr.pending]; exact hp)
    (by rw [← hr.out]; exact ho) (by rw [← hr.cycles]; exact hc) pis
    ((Src.SameNet.goodInputs hw ord fill pis _ hr).1 hg)
    (fun j hj => by rw [← (hr.processors j).2.1, ← hr.line]; exact hn j hj) j hj
  rw [h2.line, this, ← hr.line, ← hr.inFlight, ← (hr.processors j).1]

example (ord : Nat → Imp.Orders) (fill : Nat → Nat → Byte) :=
  C147_source true exDuo exWires ord fill exSourceNet exSourceNet_initial exRepeatEvs 1 (by decide)

/-- The schedule of the example has one power failure in the middle of a cycle. -/
example (ord : Nat → Imp.Orders) (fill : Nat → Nat → Byte) :
    (⟨exSourceNet, fun _ => none⟩ : Spec.Src.PowerNet).midCycle true exDuo exWires ord fill 0
      exRepeatEvs = 1 := by
  rw [Src.SamePower.midCycle (by decide) ord fill exRepeatEvs 0 exSourcePower_same]
  exact exRepeat_midCycle

/-- The byte written after the power failure is delivered after the repetition. -/
example (ord : Nat → Imp.Orders) (fill : Nat → Nat → Byte) :
    let r := ((⟨exSourceNet, fun _ => none⟩ : Spec.Src.PowerNet).run true exDuo exWires ord fill 0
      exRecoverEvs).net
    ((r.rounds true exDuo exWires ord fill exRecoverEvs.length exRecoverInputs).line 1).received =
      (r.line 1).received ++ r.inFlight exWires 1 ++ r.queued 1 ++ sentBytes (r.line 1).waiting := by
  have hw : exWires.modules ≠ [] := by decide
  have hr := (Src.SamePower.run (oc := true) (cfg := exDuo) hw ord fill exRecoverEvs 0
    exSourcePower_same).net
  obtain ⟨g1, g2, g3, g4, g5⟩ := exRecoverNet_good
  exact C147_source_delivered true exDuo exWires ord fill exSourceNet exSourceNet_initial exRecoverEvs
    (fun _ _ he => by simp [exRecoverEvs, exRepeatEvs] at he) (by rw [hr.pending]; exact g1)
    (by rw [hr.out]; exact g2) (by rw [hr.cycles]; exact g3) exRecoverInputs
    ((Src.SameNet.goodInputs hw ord fill exRecoverInputs _ hr).2 g4)
    (fun j hj => by rw [(hr.processors j).2.1, hr.line]; exact g5 j hj) 1 (by decide)

end Ur20
