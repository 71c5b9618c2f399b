import Verif.Spec.LateSendSource
import Verif.Props.LateSource
import Verif.Props.LateSend

/-!
# C151 for the translated source

The guarantees of C151, stated of the functions of the translated source (`Verif/Source`) only.
-/

namespace Ur20

open Spec

open Src.ur20_fbc_mod_tcp (embed)

open scoped List

namespace Src

/-- The system with the translated source and the one with the model are in the same state. -/
structure SameSend (s : Spec.Src.LateSend) (t : Spec.LateSend) : Prop where
  net : SameLate s.net t.net
  pend : s.pend = t.pend

theorem SameSend.step {s : Spec.Src.LateSend} {t : Spec.LateSend} (h : SameSend s t)
    (oc : Bool) (w : Wiring) (hw : w.modules ≠ []) (ord : Imp.Orders) (fill : Nat → Byte)
    (e : LateSendEv) : SameSend (s.step oc w ord fill e) (t.step oc w e) := by
  cases e with
  | set j v =>
    simp only [Spec.Src.LateSend.step, Spec.LateSend.step]
    split_ifs
    · exact ⟨h.net.withC (same_called h.net.c oc ord fill (.setOutput ⟨j, 0⟩ v) trivial).1, by
        simp only [h.pend]⟩
    · exact h
  | ev e =>
    have h' := h.net.step oc w hw ord fill e
    simp only [Spec.Src.LateSend.step, Spec.LateSend.step, h'.cycles, h.net.cycles, h.pend]
    split_ifs
    · exact ⟨h', rfl⟩
    · exact ⟨⟨h'.c, h'.kept, h'.inp, h'.ins, h'.outs, h'.out, h'.cycles, by
        simp only [Spec.Src.LateSend.start, Spec.LateSend.start, Spec.Src.LateSend.taken,
          Spec.LateSend.taken, h'.line]⟩, rfl⟩

theorem SameSend.run {oc : Bool} {w : Wiring} (hw : w.modules ≠ [])
    (ord : Nat → Imp.Orders) (fill : Nat → Nat → Byte) (evs : List LateSendEv) :
    ∀ (k : Nat) {s : Spec.Src.LateSend} {t : Spec.LateSend}, SameSend s t →
      SameSend (s.run oc w ord fill k evs) (t.run oc w evs) := by
  induction evs with
  | nil => intro k s t h; exact h
  | cons e evs ih => intro k s t h; exact ih (k + 1) (h.step oc w hw (ord k) (fill k) e)

theorem SameSend.rounds {oc : Bool} {w : Wiring} (hw : w.modules ≠ [])
    (ord : Nat → Imp.Orders) (fill : Nat → Nat → Byte) {s : Spec.Src.LateSend} {t : Spec.LateSend}
    (h : SameSend s t) (k : Nat) (pis : List (List Word)) :
    SameSend (s.rounds oc w ord fill k pis) (t.rounds oc w pis) := by
  have e : t.rounds oc w pis = t.run oc w (pis.flatMap (Spec.Src.LateSend.roundEvents w)) := by
    clear h
    induction pis generalizing t with
    | nil => rfl
    | cons pi pis ih =>
      have e1 : t.rounds oc w (pi :: pis) = (t.round oc w pi).rounds oc w pis := rfl
      rw [e1, ih, List.flatMap_cons]
      unfold Spec.LateSend.round Spec.LateSend.run
      exact (List.foldl_append ..).symm
  rw [e]
  exact SameSend.run hw ord fill _ k h

theorem SameSend.goodInputs {oc : Bool} {cfg : CouplerConfig} {w : Wiring} (hw : w.modules ≠ [])
    (ord : Nat → Imp.Orders) (fill : Nat → Nat → Byte) (pis : List (List Word)) :
    ∀ (k : Nat) {s : Spec.Src.LateSend} {t : Spec.LateSend}, SameSend s t →
      (s.GoodInputs oc cfg w ord fill k pis ↔ t.GoodInputs oc cfg w pis) := by
  induction pis with
  | nil => intro k s t h; exact Iff.rfl
  | cons pi pis ih =>
    intro k s t h
    exact and_congr Iff.rfl (and_congr (h.net.shows w pi)
      (ih _ (SameSend.run hw ord fill (Spec.Src.LateSend.roundEvents w pi) k h)))

theorem SameSend.sessions {oc : Bool} {cfg : CouplerConfig} {w : Wiring} (hw : w.modules ≠ [])
    (ord : Nat → Imp.Orders) (fill : Nat → Nat → Byte) {c d} (hc : ∃ i, c = embed i ∧ Imp.SameC i d)
    (j : Nat) (runs : List (List LateSendEv × List Word)) :
    ∀ (k : Nat) {s : Spec.Src.LateNet} {t : Spec.LateNet}, SameLate s t →
      Spec.Src.LateSend.sessions oc w ord fill c j k s runs = Spec.LateSend.sessions oc w d j t runs ∧
      (Spec.Src.LateSend.GoodSessions oc cfg w ord fill c k s runs ↔
        Spec.LateSend.GoodSessions oc cfg w d t runs) := by
  induction runs with
  | nil => intro k s t h; exact ⟨rfl, Iff.rfl⟩
  | cons x runs ih =>
    obtain ⟨evs, pi⟩ := x
    intro k s t h
    have hr := (SameSend.run (oc := oc) hw ord fill evs k (s := Spec.Src.LateSend.start s)
      (t := Spec.LateSend.start t) ⟨h, rfl⟩).net
    obtain ⟨h1, h2⟩ := ih (k + evs.length) (hr.restart hc pi)
    refine ⟨?_, and_congr Iff.rfl (and_congr (hr.shows w pi) h2)⟩
    simp only [Spec.Src.LateSend.sessions, Spec.LateSend.sessions, h1, hr.line]

end Src

section

variable (oc : Bool) (cfg : CouplerConfig) (w : Wiring) (ord : Nat → Imp.Orders)
  (fill : Nat → Nat → Byte) (s : Spec.Src.LateNet) (h : s.Started oc cfg w) (evs : List LateSendEv)

include h

/-- C151 for the translated source: whatever is set, written or read, in which order, however late the
images are and whichever get lost, every device takes over what was written to its own module or set on
it, the bytes that are set being taken by the next cycle that succeeds: completely, once and in order,
possibly after the segment that was waiting for it at the start. -/
theorem C151_source_sent (hu : LateSend.OnlyUndecodable oc cfg evs) (j : Nat) (hj : j ∈ w.modules) :
    let r := ((Spec.Src.LateSend.start s).run oc w ord fill 0 evs).net
    ∃ old, (old = [] ∨ old = s.waiting w j) ∧
      (r.line j).received ++ r.inFlight w j ++ r.queued j = old ++ (r.line j).written := by
  obtain ⟨t, ht, hs⟩ := Src.late_started h
  have hr := (Src.SameSend.run (oc := oc) (List.ne_nil_of_mem hj) ord fill evs 0
    (s := Spec.Src.LateSend.start s) (t := LateSend.start t) ⟨hs, rfl⟩).net
  have := C151_sent oc cfg w t ht evs hu j hj
  simp only at this ⊢
  rwa [hr.line, (hr.frames w j).1, (hs.frames w j).2, (hr.processors j).1]

/-- C151 for the translated source, receiving: setting bytes does not disturb what is received. -/
theorem C151_source_received (hu : LateSend.OnlyUndecodable oc cfg evs)
    (hc : 2 ≤ ((Spec.Src.LateSend.start s).run oc w ord fill 0 evs).net.cycles) (j : Nat)
    (hj : j ∈ w.modules) :
    let r := ((Spec.Src.LateSend.start s).run oc w ord fill 0 evs).net
    ∃ skipped got ahead, (r.line j).shown = skipped ++ got ++ ahead ∧
      skipped.length ≤ (r.line j).early ∧ ahead.length ≤ 1 ∧
      (r.line j).delivered ++ r.buffered j = got.flatten := by
  obtain ⟨t, ht, hs⟩ := Src.late_started h
  have hr := (Src.SameSend.run (oc := oc) (List.ne_nil_of_mem hj) ord fill evs 0
    (s := Spec.Src.LateSend.start s) (t := LateSend.start t) ⟨hs, rfl⟩).net
  have := C151_received oc cfg w t ht evs hu (by rw [← hr.cycles]; exact hc) j hj
  simp only at this ⊢
  rwa [hr.line, (hr.processors j).2.2]

/-- C151 for the translated source, receiving: before the end of the initialisation nothing is
received. -/
theorem C151_source_early (hu : LateSend.OnlyUndecodable oc cfg evs)
    (hc : ((Spec.Src.LateSend.start s).run oc w ord fill 0 evs).net.cycles < 2) (j : Nat)
    (hj : j ∈ w.modules) :
    let r := ((Spec.Src.LateSend.start s).run oc w ord fill 0 evs).net
    (r.line j).delivered ++ r.buffered j = [] := by
  obtain ⟨t, ht, hs⟩ := Src.late_started h
  have hr := (Src.SameSend.run (oc := oc) (List.ne_nil_of_mem hj) ord fill evs 0
    (s := Spec.Src.LateSend.start s) (t := LateSend.start t) ⟨hs, rfl⟩).net
  have := C151_early oc cfg w t ht evs hu (by rw [← hr.cycles]; exact hc) j hj
  simp only at this ⊢
  rwa [hr.line, (hr.processors j).2.2]

/-- C151 for the translated source, progress: when nothing is on the way any more, rounds in which the
images arrive bring everything that was written and then the bytes that are set to all devices at once: as
many as the longest queue needs, counting the segments of the bytes that are set. All cycles of these
rounds succeed. -/
theorem C151_source_progress (ho : OutputsReady cfg s.out) (hu : LateSend.OnlyUndecodable oc cfg evs)
    (hv : LateSend.AcceptedValues cfg evs) (pis : List (List Word)) :
    let r := (Spec.Src.LateSend.start s).run oc w ord fill 0 evs
    let r' := r.rounds oc w ord fill evs.length pis
    r.net.ins = [] → r.net.outs = [] → r.GoodInputs oc cfg w ord fill evs.length pis →
    (∀ i ∈ w.modules, 3 + r.net.segments i +
      ((sentBytes (r.pend i)).length + capacity (w.wire i).len - 1) / capacity (w.wire i).len ≤ pis.length) →
    ∀ j ∈ w.modules,
    (∃ old, (old = [] ∨ old = s.waiting w j) ∧ (r'.net.line j).received =
        old ++ (r.net.line j).written ++ sentBytes (r.pend j)) ∧
      r'.net.queued j = [] ∧ r'.net.cycles = r.net.cycles + pis.length := by
  intro r r' hi hos hg hk j hj
  obtain ⟨t, ht, hs⟩ := Src.late_started h
  have hw := List.ne_nil_of_mem hj
  have hr := Src.SameSend.run (oc := oc) hw ord fill evs 0
    (s := Spec.Src.LateSend.start s) (t := LateSend.start t) ⟨hs, rfl⟩
  have h2 := hr.rounds (oc := oc) hw ord fill evs.length pis
  have := C151_progress oc cfg w t ht (by rw [← hs.out]; exact ho) evs hu hv pis j hj
    (by rw [← hr.net.ins]; exact hi) (by rw [← hr.net.outs]; exact hos)
    ((Src.SameSend.goodInputs hw ord fill pis _ hr).1 hg)
    (fun i hi' => by rw [← (hr.net.processors i).2.1, ← hr.pend]; exact hk i hi')
  rwa [← h2.net.line, ← (h2.net.processors j).1, ← h2.net.cycles, ← hr.net.line, ← hr.net.cycles,
    ← (hs.frames w j).2, ← hr.pend] at this

/-- C151 for the translated source, receiving: when nothing is on the way any more, one round in which
the images arrive is enough to have received, from all devices, everything they have presented. -/
theorem C151_source_read (ho : OutputsReady cfg s.out) (hu : LateSend.OnlyUndecodable oc cfg evs)
    (hv : LateSend.AcceptedValues cfg evs) (pi : List Word) :
    let r := (Spec.Src.LateSend.start s).run oc w ord fill 0 evs
    let r' := r.rounds oc w ord fill evs.length [pi]
    2 ≤ r.net.cycles → r.net.ins = [] → r.net.outs = [] →
    r.GoodInputs oc cfg w ord fill evs.length [pi] →
    ∀ j ∈ w.modules, ∃ skipped got, (r'.net.line j).shown = skipped ++ got ∧
      skipped.length ≤ (r'.net.line j).early ∧
      (r'.net.line j).delivered ++ r'.net.buffered j = got.flatten := by
  intro r r' hc hi hos hg j hj
  obtain ⟨t, ht, hs⟩ := Src.late_started h
  have hw := List.ne_nil_of_mem hj
  have hr := Src.SameSend.run (oc := oc) hw ord fill evs 0
    (s := Spec.Src.LateSend.start s) (t := LateSend.start t) ⟨hs, rfl⟩
  have h2 := hr.rounds (oc := oc) hw ord fill evs.length [pi]
  have := C151_read oc cfg w t ht (by rw [← hs.out]; exact ho) evs hu hv
    (by rw [← hr.net.cycles]; exact hc)
    (by rw [← hr.net.ins]; exact hi) (by rw [← hr.net.outs]; exact hos) pi
    ((Src.SameSend.goodInputs hw ord fill [pi] _ hr).1 hg) j hj
  simp only at this
  rwa [← h2.net.line, ← (h2.net.processors j).2.2] at this

omit evs in
/-- C151 for the translated source, restarts: over any number of restarts of the application every device
takes over bytes that were written to its own module or set on it and taken by a cycle, each at most once
and in order, possibly after the segment that was waiting for it at the start. -/
theorem C151_source_restarts (runs : List (List LateSendEv × List Word))
    (hg : Spec.Src.LateSend.GoodSessions oc cfg w ord fill s.c 0 s runs) (j : Nat) (hj : j ∈ w.modules) :
    ((Spec.Src.LateSend.sessions oc w ord fill s.c j 0 s runs).map (·.2)).flatten <+
      s.waiting w j ++ ((Spec.Src.LateSend.sessions oc w ord fill s.c j 0 s runs).map (·.1)).flatten := by
  obtain ⟨t, ht, hs⟩ := Src.late_started h
  obtain ⟨h1, h2⟩ := Src.SameSend.sessions (oc := oc) (cfg := cfg) (List.ne_nil_of_mem hj) ord fill hs.c j
    runs 0 hs
  rw [h1, (hs.frames w j).2]
  exact C151_restarts oc cfg w t ht runs (h2.1 hg) j hj

end

section

variable (ord : Nat → Imp.Orders) (fill : Nat → Nat → Byte)

/-- The schedule of the example of C151 meets the hypotheses. -/
example := C151_source_sent true exDuo exWires ord fill exLateSource exLateSource_started exLateSendEvs
  exLateSendEvs_good.1 1 (by decide)

theorem exLateSendSource : Src.SameSend
    ((Spec.Src.LateSend.start exLateSource).run true exWires ord fill 0 exLateSendEvs) exLateSendRun :=
  Src.SameSend.run (by decide) ord fill exLateSendEvs 0 ⟨exLateSource_same, rfl⟩

/-- Also those of the rounds, which bring the bytes set last to the device. -/
example :
    let r := (Spec.Src.LateSend.start exLateSource).run true exWires ord fill 0 exLateSendEvs
    let r' := r.rounds true exWires ord fill exLateSendEvs.length exLateSendInputs
    ∃ old, (old = [] ∨ old = exLateSource.waiting exWires 1) ∧
      (r'.net.line 1).received = old ++ [1#8, 2#8, 3#8, 4#8] ++ [5#8, 6#8] := by
  intro r r'
  have hr : Src.SameSend r exLateSendRun := exLateSendSource ord fill
  obtain ⟨g1, g2, -, g4, g5⟩ := exLateSendRun_good
  obtain ⟨⟨old, h1, h2⟩, -, -⟩ := C151_source_progress true exDuo exWires ord fill exLateSource
    exLateSource_started exLateSendEvs exLateNet_ready exLateSendEvs_good.1 exLateSendEvs_good.2
    exLateSendInputs (by rw [hr.net.ins]; exact g1) (by rw [hr.net.outs]; exact g2)
    ((Src.SameSend.goodInputs (by decide) ord fill _ _ hr).2 g4)
    (fun i hi => by rw [(hr.net.processors i).2.1, hr.pend]; exact g5 i hi) 1 (by decide)
  refine ⟨old, h1, ?_⟩
  have e1 : (r.net.line 1).written = [1#8, 2#8, 3#8, 4#8] := by
    rw [hr.net.line]; decide +kernel
  have e2 : sentBytes (r.pend 1) = [5#8, 6#8] := by rw [hr.pend]; decide +kernel
  rw [h2, e1, e2]

example := C151_source_received true exDuo exWires ord fill exLateSource exLateSource_started exLateSendEvs
  exLateSendEvs_good.1 (by rw [(exLateSendSource ord fill).net.cycles, exLateSendRun_good.2.2.1]) 2
  (by decide)

example := C151_source_early true exDuo exWires ord fill exLateSource exLateSource_started
  [.set 1 (.bytes [1#8])] (fun pi po h => by simp at h)
  (by simp [Spec.Src.LateSend.run, Spec.Src.LateSend.step, Spec.Src.LateSend.start, exWires, exLateSource]) 2
  (by decide)

example := by
  have hr := exLateSendSource ord fill
  obtain ⟨g1, g2, g3, g4, -⟩ := exLateSendRun_good
  exact C151_source_read true exDuo exWires ord fill exLateSource exLateSource_started exLateSendEvs
    exLateNet_ready exLateSendEvs_good.1 exLateSendEvs_good.2 _ (by rw [hr.net.cycles, g3])
    (hr.net.ins.trans g1) (hr.net.outs.trans g2) ((Src.SameSend.goodInputs (by decide) ord fill _ _ hr).2
      ⟨g4.1, g4.2.1, trivial⟩) 2 (by decide)

example := C151_source_restarts true exDuo exWires ord fill exLateSource exLateSource_started
  [([.set 1 (.bytes [1#8]), .ev .cycle, .ev .deliver], List.replicate 8 0#16)] (by
    refine (Src.SameSend.sessions (by decide) ord fill exLateSource_same.c 1 _ 0 exLateSource_same).2.2
      ⟨fun pi po h => by simp at h, by decide +kernel, trivial⟩) 1 (by decide)

end

end Ur20
