import Verif.Spec.LateFailSource
import Verif.Props.LateSource
import Verif.Props.LateFailNet

/-!
# C153: failing cycles with late and lost images, with the translated source

The guarantees of C152, stated of the functions of the translated source (`Verif/Source`) only.
-/

namespace Ur20

open Spec

namespace Src

theorem SameLate.queue {s : Spec.Src.LateNet} {t : Spec.LateNet} (h : SameLate s t) (j : Nat) :
    s.queue j = t.queue j := by
  obtain ⟨i, hi, hs⟩ := h.c
  have e : r_get s.c.processors j = t.c.processors j := by
    rw [hi]; exact hs.processors j
  unfold Spec.Src.LateNet.queue Spec.LateNet.queue
  rw [e]
  rfl

theorem SameLate.fstep {s : Spec.Src.LateNet} {t : Spec.LateNet} (h : SameLate s t) (oc : Bool)
    (cfg : CouplerConfig) (w : Wiring) (hw : w.modules ≠ []) (ord : Imp.Orders) (fill : Nat → Byte)
    (e : LateNetFailEv) : SameLate (s.fstep oc cfg w ord fill e) (t.fstep oc cfg w e) := by
  cases e with
  | ev e => exact h.step oc w hw ord fill e
  | fail =>
    obtain ⟨c, kept, inp, ins, outs, out, cycles, line⟩ := s
    obtain ⟨d, kept', inp', ins', outs', out', cycles', line'⟩ := t
    obtain ⟨h1, h2, h3, h4, h5, h6, h7, h8⟩ := id h
    simp only at h1 h2 h3 h4 h5 h6 h7 h8
    subst h2 h3 h4 h5 h6 h7 h8
    simp only [Spec.Src.LateNet.fstep, Spec.LateNet.fstep]
    obtain ⟨g1, g2⟩ := same_next h1 oc ord fill inp kept
    generalize Spec.Src.call oc c ord fill (.next inp kept) = r at g1 g2 ⊢
    obtain ⟨c', r⟩ := r
    simp only at g1 g2
    subst g1
    generalize d.next oc inp kept = r at g2 ⊢
    obtain ⟨d', r⟩ := r
    cases r with
    | ok img => exact h
    | panic => exact h
    | err e =>
      by_cases hd : Decodable cfg inp kept
      · simp only [if_pos hd]
        exact ⟨g2 (by simp), rfl, rfl, rfl, rfl, rfl, rfl, rfl⟩
      · simp only [if_neg hd]
        exact h

theorem SameLate.failLoses {s : Spec.Src.LateNet} {t : Spec.LateNet} (h : SameLate s t) (oc : Bool)
    (cfg : CouplerConfig) (w : Wiring) (ord : Imp.Orders) (fill : Nat → Byte) (j : Nat)
    (e : LateNetFailEv) : s.failLoses oc cfg w ord fill j e = t.failLoses oc cfg w j e := by
  cases e with
  | ev e => rfl
  | fail =>
    have ha : s.Acknowledged w j ↔ t.Acknowledged w j := by
      unfold Spec.Src.LateNet.Acknowledged Spec.LateNet.Acknowledged
      rw [h.inp, h.kept]
    have hn := (same_next h.c oc ord fill t.inp t.kept).1
    have hcond : (2 ≤ s.cycles ∧ s.Acknowledged w j ∧ Decodable cfg s.inp s.kept ∧
        ∃ e, (Spec.Src.call oc s.c ord fill (.next s.inp s.kept)).2 = .next (.err e)) ↔
        (2 ≤ t.cycles ∧ t.Acknowledged w j ∧ Decodable cfg t.inp t.kept ∧
          ∃ e, (t.c.next oc t.inp t.kept).2 = .err e) := by
      rw [ha, h.inp, h.kept, h.cycles, hn]
      simp only [Ret.next.injEq]
    unfold Spec.Src.LateNet.failLoses Spec.LateNet.failLoses
    by_cases hd : 2 ≤ t.cycles ∧ t.Acknowledged w j ∧ Decodable cfg t.inp t.kept ∧
        ∃ e, (t.c.next oc t.inp t.kept).2 = .err e
    · rw [if_pos hd, if_pos (hcond.2 hd), h.queue]
    · rw [if_neg hd, if_neg fun g => hd (hcond.1 g)]

theorem SameLate.frun {oc : Bool} {cfg : CouplerConfig} {w : Wiring} (hw : w.modules ≠ [])
    (ord : Nat → Imp.Orders) (fill : Nat → Nat → Byte) (evs : List LateNetFailEv) :
    ∀ (k : Nat) {s : Spec.Src.LateNet} {t : Spec.LateNet}, SameLate s t →
      SameLate (s.frun oc cfg w ord fill k evs) (t.frun oc cfg w evs) ∧
      ∀ j, s.failLost oc cfg w ord fill j k evs = t.failLost oc cfg w j evs := by
  induction evs with
  | nil => intro k s t h; exact ⟨h, fun _ => rfl⟩
  | cons e evs ih =>
    intro k s t h
    obtain ⟨h1, h2⟩ := ih (k + 1) (h.fstep oc cfg w hw (ord k) (fill k) e)
    refine ⟨h1, fun j => ?_⟩
    simp only [Spec.Src.LateNet.failLost, Spec.LateNet.failLost]
    rw [h2 j, h.failLoses]

theorem SameLate.goodCycles {oc : Bool} {w : Wiring} (hw : w.modules ≠ [])
    (ord : Nat → Imp.Orders) (fill : Nat → Nat → Byte) (pis : List (List Word)) :
    ∀ (k : Nat) {s : Spec.Src.LateNet} {t : Spec.LateNet}, SameLate s t →
      (s.GoodCycles oc w ord fill k pis ↔ t.GoodCycles oc w pis) := by
  induction pis with
  | nil => intro k s t h; exact Iff.rfl
  | cons pi pis ih =>
    intro k s t h
    refine and_congr (h.shows w pi) (and_congr ?_ (ih _ (SameLate.run hw ord fill _ _ h)))
    have hn := (same_next h.c oc (ord k) (fill k) pi s.kept).1
    rw [hn, h.kept]
    simp only [Ret.next.injEq]

theorem late_initial {oc : Bool} {cfg : CouplerConfig} {w : Wiring} {s : Spec.Src.LateNet}
    (h : s.Initial oc cfg w) : ∃ t : Spec.LateNet, t.Initial cfg w ∧ SameLate s t := by
  obtain ⟨t, ht, hs⟩ := late_started h.started
  exact ⟨t, ⟨ht, by rw [← hs.out]; exact h.data⟩, hs⟩

end Src

section

variable (oc : Bool) (cfg : CouplerConfig) (w : Wiring) (ord : Nat → Imp.Orders)
  (fill : Nat → Nat → Byte) (s : Spec.Src.LateNet) (h : s.Initial oc cfg w) (evs : List LateNetFailEv)
  (hu : LateNet.OnlyUndecodable oc cfg (LateNetFailEv.others evs))

include h hu

/-- C153: what a device takes over of what was written to its module are, in order, all bytes except
exactly the segments that failing cycles take off the queue: at most one for each failing cycle, and none
for one whose images cannot be decoded. -/
theorem C153_sent (j : Nat) (hj : j ∈ w.modules) :
    let r := s.frun oc cfg w ord fill 0 evs
    let lost := s.failLost oc cfg w ord fill j 0 evs
    (∃ l : Pieces, l.all = (r.line j).written ∧
      l.kept = (r.line j).received ++ r.inFlight w j ++ r.queued j ∧ l.gone = lost) ∧
    (∀ seg ∈ lost, 1 ≤ seg.length ∧ seg.length ≤ capacity (w.wire j).len) ∧
    lost.length ≤ LateNetFailEv.fails evs := by
  obtain ⟨t, ht, hs⟩ := Src.late_initial h
  obtain ⟨hr, hl⟩ := Src.SameLate.frun (oc := oc) (cfg := cfg) (List.ne_nil_of_mem hj) ord fill evs 0 hs
  have := C152_net_sent oc cfg w t ht evs hu j hj
  simp only at this ⊢
  rwa [hr.line, (hr.frames w j).1, (hr.processors j).1, hl j]

/-- C153, receiving: failing cycles lose and double nothing of what the devices send. -/
theorem C153_received (hc : 2 ≤ (s.frun oc cfg w ord fill 0 evs).cycles) (j : Nat)
    (hj : j ∈ w.modules) :
    let r := s.frun oc cfg w ord fill 0 evs
    ∃ skipped got ahead, (r.line j).shown = skipped ++ got ++ ahead ∧
      skipped.length ≤ (r.line j).early ∧ ahead.length ≤ 1 ∧
      (r.line j).delivered ++ r.buffered j = got.flatten := by
  obtain ⟨t, ht, hs⟩ := Src.late_initial h
  have hr := (Src.SameLate.frun (oc := oc) (cfg := cfg) (List.ne_nil_of_mem hj) ord fill evs 0 hs).1
  have := C152_net_received oc cfg w t ht evs hu (by rw [← hr.cycles]; exact hc) j hj
  simp only at this ⊢
  rwa [hr.line, (hr.processors j).2.2]

/-- C153, receiving: before the end of the initialisation nothing is received. -/
theorem C153_early (hc : (s.frun oc cfg w ord fill 0 evs).cycles < 2) (j : Nat)
    (hj : j ∈ w.modules) :
    let r := s.frun oc cfg w ord fill 0 evs
    (r.line j).delivered ++ r.buffered j = [] := by
  obtain ⟨t, ht, hs⟩ := Src.late_initial h
  have hr := (Src.SameLate.frun (oc := oc) (cfg := cfg) (List.ne_nil_of_mem hj) ord fill evs 0 hs).1
  have := C152_net_early oc cfg w t ht evs hu (by rw [← hr.cycles]; exact hc) j hj
  simp only at this ⊢
  rwa [hr.line, (hr.processors j).2.2]

/-- C153, progress: when the cycles succeed again and nothing is on the way, a number of rounds bounded
by the queue of a module brings all that was written to its device, except for the segments lost
before. -/
theorem C153_progress (pis : List (List Word)) (j : Nat) (hj : j ∈ w.modules) :
    let r := s.frun oc cfg w ord fill 0 evs
    let r' := r.rounds oc w ord fill evs.length pis
    r.ins = [] → r.outs = [] → r.GoodCycles oc w ord fill evs.length pis →
    3 + r.segments j ≤ pis.length →
    (∃ l : Pieces, l.all = (r.line j).written ∧ l.kept = (r'.line j).received ∧
      l.gone = s.failLost oc cfg w ord fill j 0 evs) ∧
    r'.queued j = [] := by
  intro r r' hi ho hg hk
  obtain ⟨t, ht, hs⟩ := Src.late_initial h
  have hw := List.ne_nil_of_mem hj
  obtain ⟨hr, hl⟩ := Src.SameLate.frun (oc := oc) (cfg := cfg) hw ord fill evs 0 hs
  have h2 := hr.rounds (oc := oc) hw ord fill evs.length pis
  have hq : r.segments j = ((t.frun oc cfg w evs).queue j).length := by
    rw [← hr.queue j]
    simp only [r, Spec.Src.LateNet.segments, Spec.Src.LateNet.queue]
    cases Src.r_get (s.frun oc cfg w ord fill 0 evs).c.processors j <;> rfl
  have := C152_net_progress oc cfg w t ht evs hu (by rw [← hr.ins]; exact hi)
    (by rw [← hr.outs]; exact ho) pis ((Src.SameLate.goodCycles hw ord fill pis _ hr).1 hg) j hj
    (by rw [← hq]; exact hk)
  simp only at this
  rwa [← h2.line, ← (h2.processors j).1, ← hr.line, ← hl j] at this

end

/-! ### An example -/

/-- The system of the example of C152, with the translated source. -/
def exFailSource : Spec.Src.LateNet where
  c := exDuoSource
  kept := exFailNet.kept
  inp := exFailNet.inp
  ins := []
  outs := []
  out := exFailNet.out
  cycles := 0
  line := exFailNet.line

theorem exFailSource_initial : exFailSource.Initial true exDuo exWires where
  started :=
    { c := exDuoSource_new
      distinct := by decide
      serial := exSourceNet_initial.serial
      kept_bytes := fun j _ => exDuo_outputs j
      kept := rfl
      out := exFailNet_initial.started.out
      inp := exFailNet_initial.started.inp
      ins := rfl
      outs := rfl
      cycles := rfl
      devices := exFailNet_initial.started.devices
      logs := exFailNet_initial.started.logs }
  data := exFailNet_initial.data

theorem exFailSource_same : Src.SameLate exFailSource exFailNet :=
  ⟨exSourceNet_same.c, rfl, rfl, rfl, rfl, rfl, rfl, rfl⟩

section

variable (ord : Nat → Imp.Orders) (fill : Nat → Nat → Byte)

theorem exFailSource_run :
    Src.SameLate (exFailSource.frun true exDuo exWires ord fill 0 exFailEvs)
      (exFailNet.frun true exDuo exWires exFailEvs) ∧
    ∀ j, exFailSource.failLost true exDuo exWires ord fill j 0 exFailEvs =
      exFailNet.failLost true exDuo exWires j exFailEvs :=
  Src.SameLate.frun (by decide) ord fill exFailEvs 0 exFailSource_same

example := C153_sent true exDuo exWires ord fill exFailSource exFailSource_initial exFailEvs
  exFailEvs_good 2 (by decide)

example := C153_received true exDuo exWires ord fill exFailSource exFailSource_initial exFailEvs
  exFailEvs_good (by rw [(exFailSource_run ord fill).1.cycles, exFailEvs_run.1]; decide +kernel) 2
  (by decide)

example := C153_early true exDuo exWires ord fill exFailSource exFailSource_initial [.ev (.write 1 [1#8])]
  (fun pi po h => by simp [LateNetFailEv.others] at h)
  (by simp [Spec.Src.LateNet.frun, Spec.Src.LateNet.fstep, Spec.Src.LateNet.step, exWires, exFailSource,
    Spec.Src.LateNet.setLine]) 2 (by decide)

/-- The failing cycle loses one segment of each module; the device of the second one gets the other
segment. -/
example : let r := exFailSource.frun true exDuo exWires ord fill 0 exFailEvs
    let r' := r.rounds true exWires ord fill exFailEvs.length exFailInputs
    (∃ l : Pieces, l.all = [8#8, 9#8, 10#8] ∧ l.kept = [10#8] ∧ l.gone = [[8#8, 9#8]]) ∧
      r'.queued 2 = [] ∧ (r'.line 2).received = [10#8] := by
  obtain ⟨hr, hl⟩ := exFailSource_run ord fill
  have hw : exWires.modules ≠ [] := by decide
  have h2 := hr.rounds (oc := true) hw ord fill exFailEvs.length exFailInputs
  have := C153_progress true exDuo exWires ord fill exFailSource exFailSource_initial exFailEvs
    exFailEvs_good exFailInputs 2 (by decide)
    (by rw [hr.ins, exFailEvs_run.1]; decide +kernel)
    (by rw [hr.outs, exFailEvs_run.1]; decide +kernel)
    ((Src.SameLate.goodCycles hw ord fill exFailInputs _ hr).2 (by
      rw [exFailEvs_run.1]
      exact ⟨by decide +kernel, ⟨_, rfl⟩, by decide +kernel, ⟨_, rfl⟩, by decide +kernel, ⟨_, rfl⟩,
        by decide +kernel, ⟨_, rfl⟩, trivial⟩))
    (by rw [(hr.processors 2).2.1, exFailEvs_run.1]; decide +kernel)
  have hrec : ((((exFailSource.frun true exDuo exWires ord fill 0 exFailEvs).rounds true exWires ord fill
      exFailEvs.length exFailInputs).line 2).received) = [10#8] := by
    rw [h2.line, exFailEvs_run.1]; decide +kernel
  refine ⟨?_, this.2, hrec⟩
  obtain ⟨l, h3, h4, h5⟩ := this.1
  refine ⟨l, ?_, h4.trans hrec, h5.trans ((hl 2).trans exFailEvs_run.2.2)⟩
  rw [h3, hr.line, exFailEvs_run.1]; decide +kernel

end

end Ur20
