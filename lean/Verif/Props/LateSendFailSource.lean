import Verif.Props.LateSendSource
import Verif.Props.LateFailSource
import Verif.Props.LateSendFail
import Verif.Spec.LateSendFailSource

/-!
# C155 for the translated source
-/

namespace Ur20

open Spec

open Src.ur20_fbc_mod_tcp (embed)

open scoped List

namespace Src

theorem SameLate.fails {s : Spec.Src.LateNet} {t : Spec.LateNet} (h : SameLate s t) (oc : Bool)
    (cfg : CouplerConfig) (ord : Imp.Orders) (fill : Nat → Byte) :
    Spec.Src.LateSend.Fails oc cfg ord fill s ↔ Spec.LateSend.Fails oc cfg t := by
  have hn := (same_next h.c oc ord fill t.inp t.kept).1
  unfold Spec.Src.LateSend.Fails Spec.LateSend.Fails
  rw [h.inp, h.kept, hn]
  simp only [Ret.next.injEq]

theorem SameSend.fstep {s : Spec.Src.LateSend} {t : Spec.LateSend} (h : SameSend s t) (oc : Bool)
    (cfg : CouplerConfig) (w : Wiring) (hw : w.modules ≠ []) (ord : Imp.Orders) (fill : Nat → Byte)
    (e : LateSendFailEv) : SameSend (s.fstep oc cfg w ord fill e) (t.fstep oc cfg w e) := by
  cases e with
  | ev e => exact h.step oc w hw ord fill e
  | fail =>
    have hf := h.net.fails oc cfg ord fill
    have h' := h.net.fstep oc cfg w hw ord fill .fail
    unfold Spec.Src.LateSend.fstep Spec.LateSend.fstep
    by_cases hx : Spec.LateSend.Fails oc cfg t.net
    · simp only [if_pos hx, if_pos (hf.2 hx)]
      exact ⟨⟨h'.c, h'.kept, h'.inp, h'.ins, h'.outs, h'.out, h'.cycles, by
        simp only [Spec.Src.LateSend.start, Spec.LateSend.start, Spec.Src.LateSend.taken,
          Spec.LateSend.taken, h'.line, h.pend]⟩, rfl⟩
    · simp only [if_neg hx, if_neg fun g => hx (hf.1 g)]
      exact h

theorem SameSend.failLoses {s : Spec.Src.LateSend} {t : Spec.LateSend} (h : SameSend s t) (oc : Bool)
    (cfg : CouplerConfig) (w : Wiring) (ord : Imp.Orders) (fill : Nat → Byte) (j : Nat)
    (e : LateSendFailEv) : s.failLoses oc cfg w ord fill j e = t.failLoses oc cfg w j e := by
  cases e with
  | ev e => rfl
  | fail =>
    have ha : s.net.Acknowledged w j ↔ t.net.Acknowledged w j := by
      unfold Spec.Src.LateNet.Acknowledged Spec.LateNet.Acknowledged
      rw [h.net.inp, h.net.kept]
    have hf := h.net.fails oc cfg ord fill
    unfold Spec.Src.LateSend.failLoses Spec.LateSend.failLoses
    by_cases hx : 2 ≤ t.net.cycles ∧ t.net.Acknowledged w j ∧ Spec.LateSend.Fails oc cfg t.net
    · simp only [if_pos hx]
      rw [if_pos ⟨by rw [h.net.cycles]; exact hx.1, ha.2 hx.2.1, hf.2 hx.2.2⟩, h.net.queue, h.pend]
    · simp only [if_neg hx]
      rw [if_neg fun g => hx ⟨by rw [← h.net.cycles]; exact g.1, ha.1 g.2.1, hf.1 g.2.2⟩]

theorem SameSend.frun {oc : Bool} {cfg : CouplerConfig} {w : Wiring} (hw : w.modules ≠ [])
    (ord : Nat → Imp.Orders) (fill : Nat → Nat → Byte) (evs : List LateSendFailEv) :
    ∀ (k : Nat) {s : Spec.Src.LateSend} {t : Spec.LateSend}, SameSend s t →
      SameSend (s.frun oc cfg w ord fill k evs) (t.frun oc cfg w evs) ∧
      ∀ j, s.failLost oc cfg w ord fill j k evs = t.failLost oc cfg w j evs := by
  induction evs with
  | nil => intro k s t h; exact ⟨h, fun _ => rfl⟩
  | cons e evs ih =>
    intro k s t h
    obtain ⟨h1, h2⟩ := ih (k + 1) (h.fstep oc cfg w hw (ord k) (fill k) e)
    refine ⟨h1, fun j => ?_⟩
    simp only [Spec.Src.LateSend.failLost, Spec.LateSend.failLost]
    rw [h2 j, h.failLoses]

theorem SameSend.goodCycles {oc : Bool} {w : Wiring} (hw : w.modules ≠ [])
    (ord : Nat → Imp.Orders) (fill : Nat → Nat → Byte) (pis : List (List Word)) :
    ∀ (k : Nat) {s : Spec.Src.LateSend} {t : Spec.LateSend}, SameSend s t →
      (s.GoodCycles oc w ord fill k pis ↔ t.GoodCycles oc w pis) := by
  induction pis with
  | nil => intro k s t h; exact Iff.rfl
  | cons pi pis ih =>
    intro k s t h
    refine and_congr (h.net.shows w pi) (and_congr ?_
      (ih _ (SameSend.run hw ord fill (Spec.Src.LateSend.roundEvents w pi) k h)))
    have hn := (same_next h.net.c oc (ord k) (fill k) pi s.net.kept).1
    rw [hn, h.net.kept]
    simp only [Ret.next.injEq]

theorem SameSend.fsessions {oc : Bool} {cfg : CouplerConfig} {w : Wiring} (hw : w.modules ≠ [])
    (ord : Nat → Imp.Orders) (fill : Nat → Nat → Byte) {c d} (hc : ∃ i, c = embed i ∧ Imp.SameC i d)
    (j : Nat) (runs : List (List LateSendFailEv × List Word)) :
    ∀ (k : Nat) {s : Spec.Src.LateNet} {t : Spec.LateNet}, SameLate s t →
      Spec.Src.LateSend.fsessions oc cfg w ord fill c j k s runs =
        Spec.LateSend.fsessions oc cfg w d j t runs ∧
      (Spec.Src.LateSend.GoodFailSessions oc cfg w ord fill c k s runs ↔
        Spec.LateSend.GoodFailSessions oc cfg w d t runs) := by
  induction runs with
  | nil => intro k s t h; exact ⟨rfl, Iff.rfl⟩
  | cons x runs ih =>
    obtain ⟨evs, pi⟩ := x
    intro k s t h
    have hr := (SameSend.frun (oc := oc) (cfg := cfg) hw ord fill evs k
      (s := Spec.Src.LateSend.start s) (t := Spec.LateSend.start t) ⟨h, rfl⟩).1.net
    obtain ⟨h1, h2⟩ := ih (k + evs.length) (hr.restart hc pi)
    refine ⟨?_, and_congr Iff.rfl (and_congr (hr.shows w pi) h2)⟩
    simp only [Spec.Src.LateSend.fsessions, Spec.LateSend.fsessions, h1, hr.line]

end Src

section

variable (oc : Bool) (cfg : CouplerConfig) (w : Wiring) (ord : Nat → Imp.Orders)
  (fill : Nat → Nat → Byte) (s : Spec.Src.LateNet) (h : s.Started oc cfg w)
  (evs : List LateSendFailEv) (hu : LateSend.OnlyUndecodable oc cfg (LateSendFailEv.others evs))

include h

section

include hu

/-- C155 for the translated source, sending. -/
theorem C155_source_sent (j : Nat) (hj : j ∈ w.modules) :
    let r := ((Spec.Src.LateSend.start s).frun oc cfg w ord fill 0 evs).net
    let lost := (Spec.Src.LateSend.start s).failLost oc cfg w ord fill j 0 evs
    (∃ old, (old = [] ∨ old = s.waiting w j) ∧ ∃ l : Pieces, l.all = (r.line j).written ∧
      old ++ l.kept = (r.line j).received ++ r.inFlight w j ++ r.queued j ∧ l.gone = lost) ∧
    (∀ seg ∈ lost, 1 ≤ seg.length ∧ seg.length ≤ capacity (w.wire j).len) ∧
    lost.length ≤ LateSendFailEv.fails evs := by
  obtain ⟨t, ht, hs⟩ := Src.late_started h
  obtain ⟨hr, hl⟩ := Src.SameSend.frun (oc := oc) (cfg := cfg) (List.ne_nil_of_mem hj) ord fill evs 0
    (s := Spec.Src.LateSend.start s) (t := LateSend.start t) ⟨hs, rfl⟩
  have := C155_sent oc cfg w t ht evs hu j hj
  simp only at this ⊢
  rwa [hr.net.line, (hr.net.frames w j).1, (hr.net.processors j).1, hl j, (hs.frames w j).2]

/-- C155 for the translated source, receiving. -/
theorem C155_source_received
    (hc : 2 ≤ ((Spec.Src.LateSend.start s).frun oc cfg w ord fill 0 evs).net.cycles) (j : Nat)
    (hj : j ∈ w.modules) :
    let r := ((Spec.Src.LateSend.start s).frun oc cfg w ord fill 0 evs).net
    ∃ skipped got ahead, (r.line j).shown = skipped ++ got ++ ahead ∧
      skipped.length ≤ (r.line j).early ∧ ahead.length ≤ 1 ∧
      (r.line j).delivered ++ r.buffered j = got.flatten := by
  obtain ⟨t, ht, hs⟩ := Src.late_started h
  have hr := (Src.SameSend.frun (oc := oc) (cfg := cfg) (List.ne_nil_of_mem hj) ord fill evs 0
    (s := Spec.Src.LateSend.start s) (t := LateSend.start t) ⟨hs, rfl⟩).1.net
  have := C155_received oc cfg w t ht evs hu (by rw [← hr.cycles]; exact hc) j hj
  simp only at this ⊢
  rwa [hr.line, (hr.processors j).2.2]

/-- C155 for the translated source: before the end of the initialisation nothing is received. -/
theorem C155_source_early
    (hc : ((Spec.Src.LateSend.start s).frun oc cfg w ord fill 0 evs).net.cycles < 2) (j : Nat)
    (hj : j ∈ w.modules) :
    let r := ((Spec.Src.LateSend.start s).frun oc cfg w ord fill 0 evs).net
    (r.line j).delivered ++ r.buffered j = [] := by
  obtain ⟨t, ht, hs⟩ := Src.late_started h
  have hr := (Src.SameSend.frun (oc := oc) (cfg := cfg) (List.ne_nil_of_mem hj) ord fill evs 0
    (s := Spec.Src.LateSend.start s) (t := LateSend.start t) ⟨hs, rfl⟩).1.net
  have := C155_early oc cfg w t ht evs hu (by rw [← hr.cycles]; exact hc) j hj
  simp only at this ⊢
  rwa [hr.line, (hr.processors j).2.2]

/-- C155 for the translated source, progress. -/
theorem C155_source_progress (pis : List (List Word)) (j : Nat) (hj : j ∈ w.modules) :
    let r := (Spec.Src.LateSend.start s).frun oc cfg w ord fill 0 evs
    let r' := r.rounds oc w ord fill evs.length pis
    r.net.ins = [] → r.net.outs = [] → r.GoodCycles oc w ord fill evs.length pis →
    3 + r.net.segments j + ((sentBytes (r.pend j)).length + capacity (w.wire j).len - 1) /
      capacity (w.wire j).len ≤ pis.length →
    (∃ old, (old = [] ∨ old = s.waiting w j) ∧ ∃ l : Pieces,
      l.all = (r.net.line j).written ++ sentBytes (r.pend j) ∧
      old ++ l.kept = (r'.net.line j).received ∧
      l.gone = (Spec.Src.LateSend.start s).failLost oc cfg w ord fill j 0 evs) ∧
    r'.net.queued j = [] := by
  intro r r' hi ho hg hk
  obtain ⟨t, ht, hs⟩ := Src.late_started h
  have hw := List.ne_nil_of_mem hj
  obtain ⟨hr, hl⟩ := Src.SameSend.frun (oc := oc) (cfg := cfg) hw ord fill evs 0
    (s := Spec.Src.LateSend.start s) (t := LateSend.start t) ⟨hs, rfl⟩
  have h2 := hr.rounds (oc := oc) hw ord fill evs.length pis
  have := C155_progress oc cfg w t ht evs hu pis j hj (by rw [← hr.net.ins]; exact hi)
    (by rw [← hr.net.outs]; exact ho) ((Src.SameSend.goodCycles hw ord fill pis _ hr).1 hg)
    (by rw [← (hr.net.processors j).2.1, ← hr.pend]; exact hk)
  rwa [← h2.net.line, ← (h2.net.processors j).1, ← hr.net.line, ← hl j, ← (hs.frames w j).2,
    ← hr.pend] at this

end

omit evs in
/-- C155 for the translated source, restarts. -/
theorem C155_source_restarts (runs : List (List LateSendFailEv × List Word))
    (hg : Spec.Src.LateSend.GoodFailSessions oc cfg w ord fill s.c 0 s runs) (j : Nat)
    (hj : j ∈ w.modules) :
    ((Spec.Src.LateSend.fsessions oc cfg w ord fill s.c j 0 s runs).map (·.2)).flatten <+
      s.waiting w j ++
        ((Spec.Src.LateSend.fsessions oc cfg w ord fill s.c j 0 s runs).map (·.1)).flatten := by
  obtain ⟨t, ht, hs⟩ := Src.late_started h
  obtain ⟨h1, h2⟩ := Src.SameSend.fsessions (oc := oc) (cfg := cfg) (List.ne_nil_of_mem hj) ord fill
    hs.c j runs 0 hs
  rw [h1, (hs.frames w j).2]
  exact C155_restarts oc cfg w t ht runs (h2.1 hg) j hj

end

/-! ### Examples -/

section

variable (ord : Nat → Imp.Orders) (fill : Nat → Nat → Byte)

theorem exSendFailSource :
    Src.SameSend ((Spec.Src.LateSend.start exFailSource).frun true exDuo exWires ord fill 0
      exSendFailEvs) ((LateSend.start exFailNet).frun true exDuo exWires exSendFailEvs) ∧
    (Spec.Src.LateSend.start exFailSource).failLost true exDuo exWires ord fill 1 0 exSendFailEvs =
      [[1#8]] := by
  obtain ⟨h1, h2⟩ := Src.SameSend.frun (oc := true) (cfg := exDuo) (w := exWires) (by decide) ord fill
    exSendFailEvs 0 (s := Spec.Src.LateSend.start exFailSource) (t := LateSend.start exFailNet)
    ⟨exFailSource_same, rfl⟩
  exact ⟨h1, by rw [h2 1, exSendFailEvs_run.2.1]⟩

example := C155_source_sent true exDuo exWires ord fill exFailSource exFailSource_initial.started
  exSendFailEvs exSendFailEvs_good 1 (by decide)

example := C155_source_received true exDuo exWires ord fill exFailSource exFailSource_initial.started
  exSendFailEvs exSendFailEvs_good
  (by rw [(exSendFailSource ord fill).1.net.cycles, exSendFailEvs_run.1]; decide +kernel) 2 (by decide)

example := C155_source_early true exDuo exWires ord fill exFailSource exFailSource_initial.started
  [.ev (.set 1 (.bytes [1#8]))] (fun pi po h => by simp [LateSendFailEv.others] at h)
  (by
    rw [(Src.SameSend.frun (oc := true) (cfg := exDuo) (w := exWires) (by decide) ord fill _ 0
      (s := Spec.Src.LateSend.start exFailSource) (t := LateSend.start exFailNet)
      ⟨exFailSource_same, rfl⟩).1.net.cycles]
    show ((LateSend.start exFailNet).run true exWires [.set 1 (.bytes [1#8])]).net.cycles < 2
    decide +kernel) 2 (by decide)

/-- The byte set last reaches the device, the one set before the failing cycle is lost. -/
example : let r := (Spec.Src.LateSend.start exFailSource).frun true exDuo exWires ord fill 0 exSendFailEvs
    (r.rounds true exWires ord fill exSendFailEvs.length exSendFailInputs).net.queued 1 = [] := by
  have hr := (exSendFailSource ord fill).1
  have hw : exWires.modules ≠ [] := by decide
  exact (C155_source_progress true exDuo exWires ord fill exFailSource exFailSource_initial.started
    exSendFailEvs exSendFailEvs_good exSendFailInputs 1 (by decide)
    (by rw [hr.net.ins, exSendFailEvs_run.1]; decide +kernel)
    (by rw [hr.net.outs, exSendFailEvs_run.1]; decide +kernel)
    ((Src.SameSend.goodCycles hw ord fill exSendFailInputs _ hr).2 exSendFail_cycles)
    (by rw [(hr.net.processors 1).2.1, hr.pend, exSendFailEvs_run.1]; decide +kernel)).2

example := C155_source_restarts true exDuo exWires ord fill exFailSource exFailSource_initial.started
  [(exSendFailEvs, List.replicate 8 0#16)] (by
    refine (Src.SameSend.fsessions (by decide) ord fill exFailSource_same.c 1 _ 0 exFailSource_same).2.2
      ⟨exSendFailEvs_good, by rw [exSendFailEvs_run.1]; decide +kernel, trivial⟩) 1 (by decide)

end

end Ur20
