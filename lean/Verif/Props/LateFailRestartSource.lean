import Verif.Props.LateFailSource
import Verif.Props.LateFailRestart

/-!
# C154: failing cycles and restarts with late and lost images, with the translated source
-/

namespace Ur20

open Spec

open Src.ur20_fbc_mod_tcp (embed)

open scoped List

namespace Src

theorem SameLate.fsessions {oc : Bool} {cfg : CouplerConfig} {w : Wiring} (hw : w.modules ≠ [])
    (ord : Nat → Imp.Orders) (fill : Nat → Nat → Byte) {c d} (hc : ∃ i, c = embed i ∧ Imp.SameC i d)
    (j : Nat) (runs : List (List LateNetFailEv × List Word)) :
    ∀ (k : Nat) {s : Spec.Src.LateNet} {t : Spec.LateNet}, SameLate s t →
      s.fsessions oc cfg w ord fill c j k runs = t.fsessions oc cfg w d j runs ∧
      (s.GoodFailSessions oc cfg w ord fill c k runs ↔ t.GoodFailSessions oc cfg w d runs) := by
  induction runs with
  | nil => intro k s t h; exact ⟨rfl, Iff.rfl⟩
  | cons x runs ih =>
    obtain ⟨evs, pi⟩ := x
    intro k s t h
    have hr := (SameLate.frun (oc := oc) (cfg := cfg) hw ord fill evs k h).1
    obtain ⟨h1, h2⟩ := ih (k + evs.length) (hr.restart hc pi)
    refine ⟨?_, and_congr Iff.rfl (and_congr (hr.shows w pi) h2)⟩
    simp only [Spec.Src.LateNet.fsessions, Spec.LateNet.fsessions, h1, hr.line]

end Src

section

variable (oc : Bool) (cfg : CouplerConfig) (w : Wiring) (ord : Nat → Imp.Orders)
  (fill : Nat → Nat → Byte) (s : Spec.Src.LateNet) (h : s.Started oc cfg w) (evs : List LateNetFailEv)
  (hu : LateNet.OnlyUndecodable oc cfg (LateNetFailEv.others evs))

include h

section

include hu

/-- C154 for the translated source, sending. -/
theorem C154_source_sent (j : Nat) (hj : j ∈ w.modules) :
    let r := s.frun oc cfg w ord fill 0 evs
    let lost := s.failLost oc cfg w ord fill j 0 evs
    (∃ old, (old = [] ∨ old = s.waiting w j) ∧ ∃ l : Pieces, l.all = (r.line j).written ∧
      old ++ l.kept = (r.line j).received ++ r.inFlight w j ++ r.queued j ∧ l.gone = lost) ∧
    (∀ seg ∈ lost, 1 ≤ seg.length ∧ seg.length ≤ capacity (w.wire j).len) ∧
    lost.length ≤ LateNetFailEv.fails evs := by
  obtain ⟨t, ht, hs⟩ := Src.late_started h
  obtain ⟨hr, hl⟩ := Src.SameLate.frun (oc := oc) (cfg := cfg) (List.ne_nil_of_mem hj) ord fill evs 0 hs
  have := C154_net_sent oc cfg w t ht evs hu j hj
  simp only at this ⊢
  rwa [hr.line, (hr.frames w j).1, (hr.processors j).1, hl j, (hs.frames w j).2]

/-- C154 for the translated source, receiving. -/
theorem C154_source_received (hc : 2 ≤ (s.frun oc cfg w ord fill 0 evs).cycles) (j : Nat)
    (hj : j ∈ w.modules) :
    let r := s.frun oc cfg w ord fill 0 evs
    ∃ skipped got ahead, (r.line j).shown = skipped ++ got ++ ahead ∧
      skipped.length ≤ (r.line j).early ∧ ahead.length ≤ 1 ∧
      (r.line j).delivered ++ r.buffered j = got.flatten := by
  obtain ⟨t, ht, hs⟩ := Src.late_started h
  have hr := (Src.SameLate.frun (oc := oc) (cfg := cfg) (List.ne_nil_of_mem hj) ord fill evs 0 hs).1
  have := C154_net_received oc cfg w t ht evs hu (by rw [← hr.cycles]; exact hc) j hj
  simp only at this ⊢
  rwa [hr.line, (hr.processors j).2.2]

/-- C154 for the translated source: before the end of the initialisation nothing is received. -/
theorem C154_source_early (hc : (s.frun oc cfg w ord fill 0 evs).cycles < 2) (j : Nat)
    (hj : j ∈ w.modules) :
    let r := s.frun oc cfg w ord fill 0 evs
    (r.line j).delivered ++ r.buffered j = [] := by
  obtain ⟨t, ht, hs⟩ := Src.late_started h
  have hr := (Src.SameLate.frun (oc := oc) (cfg := cfg) (List.ne_nil_of_mem hj) ord fill evs 0 hs).1
  have := C154_net_early oc cfg w t ht evs hu (by rw [← hr.cycles]; exact hc) j hj
  simp only at this ⊢
  rwa [hr.line, (hr.processors j).2.2]

/-- C154 for the translated source, progress. -/
theorem C154_source_progress (pis : List (List Word)) (j : Nat) (hj : j ∈ w.modules) :
    let r := s.frun oc cfg w ord fill 0 evs
    let r' := r.rounds oc w ord fill evs.length pis
    r.ins = [] → r.outs = [] → r.GoodCycles oc w ord fill evs.length pis →
    3 + r.segments j ≤ pis.length →
    (∃ old, (old = [] ∨ old = s.waiting w j) ∧ ∃ l : Pieces, l.all = (r.line j).written ∧
      old ++ l.kept = (r'.line j).received ∧ l.gone = s.failLost oc cfg w ord fill j 0 evs) ∧
    r'.queued j = [] := by
  intro r r' hi ho hg hk
  obtain ⟨t, ht, hs⟩ := Src.late_started h
  have hw := List.ne_nil_of_mem hj
  obtain ⟨hr, hl⟩ := Src.SameLate.frun (oc := oc) (cfg := cfg) hw ord fill evs 0 hs
  have h2 := hr.rounds (oc := oc) hw ord fill evs.length pis
  have hq : r.segments j = ((t.frun oc cfg w evs).queue j).length := by
    rw [← hr.queue j]
    simp only [r, Spec.Src.LateNet.segments, Spec.Src.LateNet.queue]
    cases Src.r_get (s.frun oc cfg w ord fill 0 evs).c.processors j <;> rfl
  have := C154_net_progress oc cfg w t ht evs hu (by rw [← hr.ins]; exact hi)
    (by rw [← hr.outs]; exact ho) pis ((Src.SameLate.goodCycles hw ord fill pis _ hr).1 hg) j hj
    (by rw [← hq]; exact hk)
  simp only at this
  rwa [← h2.line, ← (h2.processors j).1, ← hr.line, ← hl j, ← (hs.frames w j).2] at this

end

omit evs in
/-- C154 for the translated source, restarts. -/
theorem C154_source_restarts (runs : List (List LateNetFailEv × List Word))
    (hg : s.GoodFailSessions oc cfg w ord fill s.c 0 runs) (j : Nat) (hj : j ∈ w.modules) :
    ((s.fsessions oc cfg w ord fill s.c j 0 runs).map (·.2)).flatten <+
      s.waiting w j ++ ((s.fsessions oc cfg w ord fill s.c j 0 runs).map (·.1)).flatten := by
  obtain ⟨t, ht, hs⟩ := Src.late_started h
  obtain ⟨h1, h2⟩ := Src.SameLate.fsessions (oc := oc) (cfg := cfg) (List.ne_nil_of_mem hj) ord fill
    hs.c j runs 0 hs
  rw [h1, (hs.frames w j).2]
  exact C154_net_restarts oc cfg w t ht runs (h2.1 hg) j hj

end

/-! ### Examples -/

section

variable (ord : Nat → Imp.Orders) (fill : Nat → Nat → Byte)

theorem exFailFirst_source :
    Src.SameLate (exLateSource.frun true exDuo exWires ord fill 0 exFailFirst)
      (exLateNet.frun true exDuo exWires exFailFirst) :=
  (Src.SameLate.frun (by decide) ord fill exFailFirst 0 exLateSource_same).1

example := C154_source_sent true exDuo exWires ord fill exLateSource exLateSource_started exFailFirst
  exFailFirst_good 1 (by decide)

example := C154_source_received true exDuo exWires ord fill exLateSource exLateSource_started exFailFirst
  exFailFirst_good (by rw [(exFailFirst_source ord fill).cycles, exFailFirst_run.1]; decide +kernel) 1
  (by decide)

example := C154_source_early true exDuo exWires ord fill exLateSource exLateSource_started
  [.ev (.write 1 [1#8])] (fun pi po h => by simp [LateNetFailEv.others] at h)
  (by simp [Spec.Src.LateNet.frun, Spec.Src.LateNet.fstep, Spec.Src.LateNet.step, exWires, exLateSource,
    Spec.Src.LateNet.setLine]) 2 (by decide)

example : let r := exFailSource.frun true exDuo exWires ord fill 0 exFailEvs
    (r.rounds true exWires ord fill exFailEvs.length exFailInputs).queued 2 = [] := by
  have hr := (exFailSource_run ord fill).1
  have hw : exWires.modules ≠ [] := by decide
  exact (C154_source_progress true exDuo exWires ord fill exFailSource exFailSource_initial.started
    exFailEvs exFailEvs_good exFailInputs 2 (by decide)
    (by rw [hr.ins, exFailEvs_run.1]; decide +kernel)
    (by rw [hr.outs, exFailEvs_run.1]; decide +kernel)
    ((Src.SameLate.goodCycles hw ord fill exFailInputs _ hr).2 (by
      rw [exFailEvs_run.1]
      exact ⟨by decide +kernel, ⟨_, rfl⟩, by decide +kernel, ⟨_, rfl⟩, by decide +kernel, ⟨_, rfl⟩,
        by decide +kernel, ⟨_, rfl⟩, trivial⟩))
    (by rw [(hr.processors 2).2.1, exFailEvs_run.1]; decide +kernel)).2

example := C154_source_restarts true exDuo exWires ord fill exLateSource exLateSource_started
  [(exFailFirst, [0x0020#16, 0#16, 0#16, 0#16, 0#16, 0#16, 0#16, 0#16])] (by
    refine (Src.SameLate.fsessions (by decide) ord fill exLateSource_same.c 1 _ 0 exLateSource_same).2.2
      ⟨exFailFirst_good, by rw [exFailFirst_run.1]; decide +kernel, trivial⟩) 1 (by decide)

end

end Ur20
