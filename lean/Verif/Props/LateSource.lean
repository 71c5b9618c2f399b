import Verif.Spec.LateSource
import Verif.Props.SourceNet
import Verif.Props.LateNet

/-!
# C149: late and lost images with the translated source

The guarantees of C148, stated of the functions of the translated source (`Verif/Source`) only.
-/

namespace Ur20

open Spec

open Src.ur20_fbc_mod_tcp (embed new_eq)

open scoped List

namespace Src

/-- The system with the translated source and the one with the model are in the same state. -/
structure SameLate (s : Spec.Src.LateNet) (t : Spec.LateNet) : Prop where
  c : ∃ i, s.c = embed i ∧ Imp.SameC i t.c
  kept : s.kept = t.kept
  inp : s.inp = t.inp
  ins : s.ins = t.ins
  outs : s.outs = t.outs
  out : s.out = t.out
  cycles : s.cycles = t.cycles
  line : s.line = t.line

theorem SameLate.setLine {s : Spec.Src.LateNet} {t : Spec.LateNet} (h : SameLate s t) (j : Nat)
    (l : LateLine) : SameLate (s.setLine j l) (t.setLine j l) :=
  ⟨h.c, h.kept, h.inp, h.ins, h.outs, h.out, h.cycles, by
    simp only [Spec.Src.LateNet.setLine, Spec.LateNet.setLine, h.line]⟩

theorem SameLate.withC {s : Spec.Src.LateNet} {t : Spec.LateNet} (h : SameLate s t) {c d}
    (hc : ∃ i, c = embed i ∧ Imp.SameC i d) : SameLate { s with c := c } { t with c := d } :=
  ⟨hc, h.kept, h.inp, h.ins, h.outs, h.out, h.cycles, h.line⟩

/-- A call that is not a cycle. -/
theorem same_called {c : ur20_fbc_mod_tcp.Coupler} {d : Ur20.Coupler}
    (h : ∃ i, c = embed i ∧ Imp.SameC i d) (oc : Bool)
    (ord : Imp.Orders) (fill : Nat → Byte) (op : COp) (hop : op.IsCall) :
    (∃ i, (Spec.Src.call oc c ord fill op).1 = embed i ∧ Imp.SameC i (op.apply oc d)) ∧
      (Spec.Src.call oc c ord fill op).2 = (Spec.call oc d op).2 := by
  obtain ⟨i, hi, hs⟩ := h
  obtain ⟨h1, h2⟩ := call_model oc hs ord fill op
  obtain ⟨i', h3, h4⟩ := h2 (call_no_panic oc _ op hop)
  rw [hi]
  exact ⟨⟨i', h4, h3⟩, h1⟩

/-- A cycle. -/
theorem same_next {c : ur20_fbc_mod_tcp.Coupler} {d : Ur20.Coupler}
    (h : ∃ i, c = embed i ∧ Imp.SameC i d) (oc : Bool)
    (ord : Imp.Orders) (fill : Nat → Byte) (pi po : List Word) :
    (Spec.Src.call oc c ord fill (.next pi po)).2 = .next (d.next oc pi po).2 ∧
    ((d.next oc pi po).2 ≠ .panic →
      ∃ i, (Spec.Src.call oc c ord fill (.next pi po)).1 = embed i ∧
        Imp.SameC i (d.next oc pi po).1) := by
  obtain ⟨i, hi, hs⟩ := h
  obtain ⟨h1, h2⟩ := call_model oc hs ord fill (.next pi po)
  rw [hi]
  refine ⟨h1, fun hp => ?_⟩
  obtain ⟨i', h3, h4⟩ := h2 (by
    simp only [Spec.call]
    cases hr : (d.next oc pi po).2 with
    | ok a => rfl
    | err a => rfl
    | panic => exact absurd hr hp)
  exact ⟨i', h4, h3⟩

theorem SameLate.step {s : Spec.Src.LateNet} {t : Spec.LateNet} (h : SameLate s t) (oc : Bool)
    (w : Wiring) (hw : w.modules ≠ []) (ord : Imp.Orders) (fill : Nat → Byte)
    (e : LateNetEv) : SameLate (s.step oc w ord fill e) (t.step oc w e) := by
  obtain ⟨c, kept, inp, ins, outs, out, cycles, line⟩ := s
  obtain ⟨d, kept', inp', ins', outs', out', cycles', line'⟩ := t
  obtain ⟨h1, h2, h3, h4, h5, h6, h7, h8⟩ := id h
  simp only at h1 h2 h3 h4 h5 h6 h7 h8
  subst h2 h3 h4 h5 h6 h7 h8
  cases e with
  | write j buf =>
    simp only [Spec.Src.LateNet.step, Spec.LateNet.step]
    split_ifs
    · exact (h.withC (same_called h1 oc ord fill (.write j buf) trivial).1).setLine j _
    · exact h
  | read j n =>
    simp only [Spec.Src.LateNet.step, Spec.LateNet.step]
    split_ifs
    · obtain ⟨g1, g2⟩ := same_called h1 oc ord fill (.read j n) trivial
      generalize Spec.Src.call oc c ord fill (.read j n) = r at g1 g2 ⊢
      obtain ⟨c', r⟩ := r
      simp only at g1 g2
      subst g2
      simp only [Spec.call, COp.apply] at g1 ⊢
      cases hr : d.read j n with
      | err e => exact h
      | panic => exact h
      | ok p =>
        obtain ⟨d', b⟩ := p
        rw [hr] at g1
        cases b with
        | none => exact h
        | some bytes => exact (h.withC g1).setLine j _
    · exact h
  | other op =>
    simp only [Spec.Src.LateNet.step, Spec.LateNet.step]
    split_ifs with ho
    · obtain ⟨j, hj⟩ := List.exists_mem_of_ne_nil _ hw
      exact h.withC (same_called h1 oc ord fill op (elsewhere_isCall (ho j hj))).1
    · exact h
  | sample pi =>
    simp only [Spec.Src.LateNet.step, Spec.LateNet.step]
    have hsh : Spec.Src.LateNet.Shows w ⟨c, kept, inp, ins, outs, out, cycles, line⟩ pi ↔
      Spec.LateNet.Shows w ⟨d, kept, inp, ins, outs, out, cycles, line⟩ pi := Iff.rfl
    by_cases hs : Spec.LateNet.Shows w ⟨d, kept, inp, ins, outs, out, cycles, line⟩ pi
    · rw [if_pos hs, if_pos (hsh.2 hs)]
      exact ⟨h1, rfl, rfl, rfl, rfl, rfl, rfl, rfl⟩
    · rw [if_neg hs, if_neg (fun h => hs (hsh.1 h))]
      exact h
  | arrive =>
    simp only [Spec.Src.LateNet.step, Spec.LateNet.step]
    cases ins with
    | nil => exact h
    | cons i ins => exact ⟨h1, rfl, rfl, rfl, rfl, rfl, rfl, rfl⟩
  | loseIn n => exact ⟨h1, rfl, rfl, rfl, rfl, rfl, rfl, rfl⟩
  | cycle =>
    simp only [Spec.Src.LateNet.step, Spec.LateNet.step]
    obtain ⟨g1, g2⟩ := same_next h1 oc ord fill inp kept
    generalize Spec.Src.call oc c ord fill (.next inp kept) = r at g1 g2 ⊢
    obtain ⟨c', r⟩ := r
    simp only at g1 g2
    subst g1
    generalize d.next oc inp kept = r at g2 ⊢
    obtain ⟨d', r⟩ := r
    cases r with
    | err e => exact h
    | panic => exact h
    | ok img => exact ⟨g2 (by simp), rfl, rfl, rfl, rfl, rfl, rfl, rfl⟩
  | failing pi po =>
    simp only [Spec.Src.LateNet.step, Spec.LateNet.step]
    obtain ⟨g1, g2⟩ := same_next h1 oc ord fill pi po
    generalize Spec.Src.call oc c ord fill (.next pi po) = r at g1 g2 ⊢
    obtain ⟨c', r⟩ := r
    simp only at g1 g2
    subst g1
    generalize d.next oc pi po = r at g2 ⊢
    obtain ⟨d', r⟩ := r
    cases r with
    | ok img => exact h
    | panic => exact h
    | err e => exact ⟨g2 (by simp), rfl, rfl, rfl, rfl, rfl, rfl, rfl⟩
  | again => exact ⟨h1, rfl, rfl, rfl, rfl, rfl, rfl, rfl⟩
  | deliver =>
    simp only [Spec.Src.LateNet.step, Spec.LateNet.step]
    cases outs with
    | nil => exact h
    | cons o outs => exact ⟨h1, rfl, rfl, rfl, rfl, rfl, rfl, rfl⟩
  | loseOut n => exact ⟨h1, rfl, rfl, rfl, rfl, rfl, rfl, rfl⟩
  | take j =>
    simp only [Spec.Src.LateNet.step, Spec.LateNet.step]
    split_ifs
    · cases outFrame (w.wire j).len (w.wire j).oo out with
      | some f =>
        simp only
        split_ifs
        · exact h.setLine j _
        · exact h
      | none => exact h
    · exact h
  | post j seg =>
    simp only [Spec.Src.LateNet.step, Spec.LateNet.step]
    split_ifs
    · cases outFrame (w.wire j).len (w.wire j).oo out with
      | some f =>
        simp only
        split_ifs
        · exact h.setLine j _
        · exact h
      | none => exact h
    · exact h
  | hide j =>
    simp only [Spec.Src.LateNet.step, Spec.LateNet.step]
    split_ifs
    · cases outFrame (w.wire j).len (w.wire j).oo out with
      | some f =>
        simp only
        split_ifs
        · exact h.setLine j _
        · exact h
      | none => exact h
    · exact h

theorem SameLate.run {oc : Bool} {w : Wiring} (hw : w.modules ≠ [])
    (ord : Nat → Imp.Orders) (fill : Nat → Nat → Byte) (evs : List LateNetEv) :
    ∀ (k : Nat) {s : Spec.Src.LateNet} {t : Spec.LateNet}, SameLate s t →
      SameLate (s.run oc w ord fill k evs) (t.run oc w evs) := by
  induction evs with
  | nil => intro k s t h; exact h
  | cons e evs ih => intro k s t h; exact ih (k + 1) (h.step oc w hw (ord k) (fill k) e)

theorem SameLate.rounds {oc : Bool} {w : Wiring} (hw : w.modules ≠ [])
    (ord : Nat → Imp.Orders) (fill : Nat → Nat → Byte) {s : Spec.Src.LateNet} {t : Spec.LateNet}
    (h : SameLate s t) (k : Nat) (pis : List (List Word)) :
    SameLate (s.rounds oc w ord fill k pis) (t.rounds oc w pis) := by
  have e : t.rounds oc w pis = t.run oc w (pis.flatMap (Spec.Src.LateNet.roundEvents w)) := by
    clear h
    induction pis generalizing t with
    | nil => rfl
    | cons pi pis ih =>
      have e1 : t.rounds oc w (pi :: pis) = (t.round oc w pi).rounds oc w pis := rfl
      rw [e1, ih, List.flatMap_cons]
      unfold Spec.LateNet.round Spec.LateNet.run
      exact (List.foldl_append ..).symm
  rw [e]
  exact SameLate.run hw ord fill _ k h

theorem SameLate.shows {s : Spec.Src.LateNet} {t : Spec.LateNet} (h : SameLate s t) (w : Wiring)
    (pi : List Word) : s.Shows w pi ↔ t.Shows w pi := by
  unfold Spec.Src.LateNet.Shows Spec.LateNet.Shows
  rw [h.line]

theorem SameLate.goodInputs {oc : Bool} {cfg : CouplerConfig} {w : Wiring} (hw : w.modules ≠ [])
    (ord : Nat → Imp.Orders) (fill : Nat → Nat → Byte) (pis : List (List Word)) :
    ∀ (k : Nat) {s : Spec.Src.LateNet} {t : Spec.LateNet}, SameLate s t →
      (s.GoodInputs oc cfg w ord fill k pis ↔ t.GoodInputs oc cfg w pis) := by
  induction pis with
  | nil => intro k s t h; exact Iff.rfl
  | cons pi pis ih =>
    intro k s t h
    exact and_congr Iff.rfl (and_congr (h.shows w pi)
      (ih _ (SameLate.run hw ord fill (Spec.Src.LateNet.roundEvents w pi) k h)))

theorem SameLate.processors {s : Spec.Src.LateNet} {t : Spec.LateNet} (h : SameLate s t) (j : Nat) :
    s.queued j = t.queued j ∧ s.segments j = t.segments j ∧ s.buffered j = t.buffered j := by
  obtain ⟨i, hi, hs⟩ := h.c
  have e : r_get s.c.processors j = t.c.processors j := by
    rw [hi]; exact hs.processors j
  unfold Spec.Src.LateNet.queued Spec.Src.LateNet.segments Spec.Src.LateNet.buffered
    Spec.LateNet.queued Spec.LateNet.segments Spec.LateNet.buffered
  rw [e]
  exact ⟨rfl, rfl, rfl⟩

theorem SameLate.frames {s : Spec.Src.LateNet} {t : Spec.LateNet} (h : SameLate s t) (w : Wiring)
    (j : Nat) : s.inFlight w j = t.inFlight w j ∧ s.waiting w j = t.waiting w j := by
  unfold Spec.Src.LateNet.inFlight Spec.LateNet.inFlight Spec.Src.LateNet.waiting
    Spec.LateNet.waiting
  rw [h.out, h.line, h.kept]
  exact ⟨rfl, rfl⟩

theorem SameLate.restart {s : Spec.Src.LateNet} {t : Spec.LateNet} (h : SameLate s t) {c d}
    (hc : ∃ i, c = embed i ∧ Imp.SameC i d) (pi : List Word) :
    SameLate (s.restart c pi) (t.restart d pi) :=
  ⟨hc, h.out, rfl, rfl, rfl, h.out, rfl, by
    simp only [Spec.Src.LateNet.restart, Spec.LateNet.restart, h.line]⟩

theorem SameLate.sessions {oc : Bool} {cfg : CouplerConfig} {w : Wiring} (hw : w.modules ≠ [])
    (ord : Nat → Imp.Orders) (fill : Nat → Nat → Byte) {c d} (hc : ∃ i, c = embed i ∧ Imp.SameC i d)
    (j : Nat) (runs : List (List LateNetEv × List Word)) :
    ∀ (k : Nat) {s : Spec.Src.LateNet} {t : Spec.LateNet}, SameLate s t →
      s.sessions oc w ord fill c j k runs = t.sessions oc w d j runs ∧
      (s.GoodSessions oc cfg w ord fill c k runs ↔ t.GoodSessions oc cfg w d runs) := by
  induction runs with
  | nil => intro k s t h; exact ⟨rfl, Iff.rfl⟩
  | cons x runs ih =>
    obtain ⟨evs, pi⟩ := x
    intro k s t h
    have hr := SameLate.run (oc := oc) hw ord fill evs k h
    obtain ⟨h1, h2⟩ := ih (k + evs.length) (hr.restart hc pi)
    refine ⟨?_, and_congr Iff.rfl (and_congr (hr.shows w pi) h2)⟩
    simp only [Spec.Src.LateNet.sessions, Spec.LateNet.sessions, h1, hr.line]

theorem late_started {oc : Bool} {cfg : CouplerConfig} {w : Wiring} {s : Spec.Src.LateNet}
    (h : s.Started oc cfg w) : ∃ t : Spec.LateNet, t.Started cfg w ∧ SameLate s t := by
  obtain ⟨d, i, h0, h1, hs⟩ := new_model h.c
  refine ⟨⟨d, s.kept, s.inp, s.ins, s.outs, s.out, s.cycles, s.line⟩, ?_,
    ⟨⟨i, h1, hs⟩, rfl, rfl, rfl, rfl, rfl, rfl, rfl⟩⟩
  have hr : ReachableFrom oc cfg d := ⟨d, [], h0, rfl⟩
  exact
    { c := h0
      distinct := h.distinct
      serial := by
        intro j hj
        obtain ⟨par, a1, a2, a3, a4, a5, a6, a7⟩ := h.serial j hj
        rw [← a2]
        exact serialAt_of_configured hr a1 a4 a3 ⟨a6, a5⟩ a7
      kept_bytes := fun j hj => kept_infos hr (h.kept_bytes j hj)
      kept := h.kept
      out := h.out
      inp := h.inp
      ins := h.ins
      outs := h.outs
      cycles := h.cycles
      devices := h.devices
      logs := h.logs }

end Src

section

variable (oc : Bool) (cfg : CouplerConfig) (w : Wiring) (ord : Nat → Imp.Orders)
  (fill : Nat → Nat → Byte) (s : Spec.Src.LateNet) (h : s.Started oc cfg w) (evs : List LateNetEv)

include h

/-- C149: however late the images are and whichever get lost, every device takes over what was written to
its own module, completely, once and in order, possibly after the segment that was waiting for it at the
start. -/
theorem C149_sent (hu : LateNet.OnlyUndecodable oc cfg evs) (j : Nat) (hj : j ∈ w.modules) :
    let r := s.run oc w ord fill 0 evs
    ∃ old, (old = [] ∨ old = s.waiting w j) ∧
      (r.line j).received ++ r.inFlight w j ++ r.queued j = old ++ (r.line j).written := by
  obtain ⟨t, ht, hs⟩ := Src.late_started h
  have hr := Src.SameLate.run (oc := oc) (List.ne_nil_of_mem hj) ord fill evs 0 hs
  have := C148_sent oc cfg w t ht evs hu j hj
  simp only at this ⊢
  rwa [hr.line, (hr.frames w j).1, (hs.frames w j).2, (hr.processors j).1]

/-- C149, receiving: what is read from a module comes from its own device: the segments it has shown,
completely, once and in order, except those it showed before the end of the initialisation and the one
that may not have arrived. -/
theorem C149_received (hu : LateNet.OnlyUndecodable oc cfg evs)
    (hc : 2 ≤ (s.run oc w ord fill 0 evs).cycles) (j : Nat) (hj : j ∈ w.modules) :
    let r := s.run oc w ord fill 0 evs
    ∃ skipped got ahead, (r.line j).shown = skipped ++ got ++ ahead ∧
      skipped.length ≤ (r.line j).early ∧ ahead.length ≤ 1 ∧
      (r.line j).delivered ++ r.buffered j = got.flatten := by
  obtain ⟨t, ht, hs⟩ := Src.late_started h
  have hr := Src.SameLate.run (oc := oc) (List.ne_nil_of_mem hj) ord fill evs 0 hs
  have := C148_received oc cfg w t ht evs hu (by rw [← hr.cycles]; exact hc) j hj
  simp only at this ⊢
  rwa [hr.line, (hr.processors j).2.2]

/-- C149, receiving: before the end of the initialisation nothing is received. -/
theorem C149_early (hu : LateNet.OnlyUndecodable oc cfg evs)
    (hc : (s.run oc w ord fill 0 evs).cycles < 2) (j : Nat) (hj : j ∈ w.modules) :
    let r := s.run oc w ord fill 0 evs
    (r.line j).delivered ++ r.buffered j = [] := by
  obtain ⟨t, ht, hs⟩ := Src.late_started h
  have hr := Src.SameLate.run (oc := oc) (List.ne_nil_of_mem hj) ord fill evs 0 hs
  have := C148_early oc cfg w t ht evs hu (by rw [← hr.cycles]; exact hc) j hj
  simp only at this ⊢
  rwa [hr.line, (hr.processors j).2.2]

/-- C149, progress: when nothing is on the way any more, rounds in which the images arrive bring
everything written to all devices at once: as many as the longest queue needs. All cycles of these
rounds succeed. -/
theorem C149_progress (ho : OutputsReady cfg s.out) (hu : LateNet.OnlyUndecodable oc cfg evs)
    (hv : LateNet.AcceptedValues cfg evs) (pis : List (List Word)) :
    let r := s.run oc w ord fill 0 evs
    let r' := r.rounds oc w ord fill evs.length pis
    r.ins = [] → r.outs = [] → r.GoodInputs oc cfg w ord fill evs.length pis →
    (∀ j ∈ w.modules, 3 + r.segments j ≤ pis.length) → ∀ j ∈ w.modules,
    (∃ old, (old = [] ∨ old = s.waiting w j) ∧
      (r'.line j).received = old ++ (r.line j).written) ∧
    r'.queued j = [] ∧ r'.cycles = r.cycles + pis.length := by
  intro r r' hi hos hg hk j hj
  obtain ⟨t, ht, hs⟩ := Src.late_started h
  have hw := List.ne_nil_of_mem hj
  have hr := Src.SameLate.run (oc := oc) hw ord fill evs 0 hs
  have h2 := hr.rounds (oc := oc) hw ord fill evs.length pis
  have := C148_progress oc cfg w t ht (by rw [← hs.out]; exact ho) evs hu hv
    (by rw [← hr.ins]; exact hi) (by rw [← hr.outs]; exact hos) pis
    ((Src.SameLate.goodInputs hw ord fill pis _ hr).1 hg)
    (fun j hj => by rw [← (hr.processors j).2.1]; exact hk j hj) j hj
  rwa [← h2.line, ← (h2.processors j).1, ← h2.cycles, ← hr.line, ← hr.cycles, ← (hs.frames w j).2]
    at this

/-- C149, receiving: when nothing is on the way any more, one round in which the images arrive is enough
to have received, from all devices, everything they have presented. -/
theorem C149_read (ho : OutputsReady cfg s.out) (hu : LateNet.OnlyUndecodable oc cfg evs)
    (hv : LateNet.AcceptedValues cfg evs) (pi : List Word) :
    let r := s.run oc w ord fill 0 evs
    let r' := r.rounds oc w ord fill evs.length [pi]
    2 ≤ r.cycles → r.ins = [] → r.outs = [] → r.GoodInputs oc cfg w ord fill evs.length [pi] →
    ∀ j ∈ w.modules, ∃ skipped got, (r'.line j).shown = skipped ++ got ∧
      skipped.length ≤ (r'.line j).early ∧ (r'.line j).delivered ++ r'.buffered j = got.flatten := by
  intro r r' hc hi hos hg j hj
  obtain ⟨t, ht, hs⟩ := Src.late_started h
  have hw := List.ne_nil_of_mem hj
  have hr := Src.SameLate.run (oc := oc) hw ord fill evs 0 hs
  have h2 := hr.rounds (oc := oc) hw ord fill evs.length [pi]
  have := C148_read oc cfg w t ht (by rw [← hs.out]; exact ho) evs hu hv (by rw [← hr.cycles]; exact hc)
    (by rw [← hr.ins]; exact hi) (by rw [← hr.outs]; exact hos) pi
    ((Src.SameLate.goodInputs hw ord fill [pi] _ hr).1 hg) j hj
  simp only at this
  rwa [← h2.line, ← (h2.processors j).2.2] at this

omit evs in
/-- C149, restarts: over any number of restarts of the application every device takes over bytes that
were written to its own module, each at most once and in order, possibly after the segment that was
waiting for it at the start. -/
theorem C149_restarts (runs : List (List LateNetEv × List Word))
    (hg : s.GoodSessions oc cfg w ord fill s.c 0 runs) (j : Nat) (hj : j ∈ w.modules) :
    ((s.sessions oc w ord fill s.c j 0 runs).map (·.2)).flatten <+
      s.waiting w j ++ ((s.sessions oc w ord fill s.c j 0 runs).map (·.1)).flatten := by
  obtain ⟨t, ht, hs⟩ := Src.late_started h
  obtain ⟨h1, h2⟩ := Src.SameLate.sessions (oc := oc) (cfg := cfg) (List.ne_nil_of_mem hj) ord fill hs.c j
    runs 0 hs
  rw [h1, (hs.frames w j).2]
  exact C148_restarts oc cfg w t ht runs (h2.1 hg) j hj

end

/-! ### An example -/

/-- The system of the example of C148, with the translated source. -/
def exLateSource : Spec.Src.LateNet where
  c := exDuoSource
  kept := exLateNet.kept
  inp := exLateNet.inp
  ins := []
  outs := []
  out := exLateNet.out
  cycles := 0
  line := exLateNet.line

theorem exLateSource_started : exLateSource.Started true exDuo exWires where
  c := exDuoSource_new
  distinct := by decide
  serial := exSourceNet_initial.serial
  kept_bytes := fun j _ => exDuo_outputs j
  kept := rfl
  out := exLateNet_started.out
  inp := exLateNet_started.inp
  ins := rfl
  outs := rfl
  cycles := rfl
  devices := exLateNet_started.devices
  logs := exLateNet_started.logs

theorem exLateSource_same : Src.SameLate exLateSource exLateNet :=
  ⟨exSourceNet_same.c, rfl, rfl, rfl, rfl, rfl, rfl, rfl⟩

section

variable (ord : Nat → Imp.Orders) (fill : Nat → Nat → Byte)

/-- After five rounds both devices have everything, whatever the orders of iteration and the buffers. -/
example : let r := exLateSource.run true exWires ord fill 0 exLateNetEvs
    let r' := r.rounds true exWires ord fill exLateNetEvs.length exLateNetInputs
    (r'.queued 1 = [] ∧ r'.queued 2 = [] ∧ r'.cycles = 7) ∧
      (r'.line 1).received = [8#8, 9#8] ++ [1#8, 2#8, 3#8, 4#8, 5#8, 6#8, 7#8] := by
  have hw : exWires.modules ≠ [] := by decide
  have hr : Src.SameLate (exLateSource.run true exWires ord fill 0 exLateNetEvs) exLateNetRun :=
    Src.SameLate.run hw ord fill exLateNetEvs 0 exLateSource_same
  obtain ⟨g1, g2, g3, g4, g5⟩ := exLateNetRun_good
  have := C149_progress true exDuo exWires ord fill exLateSource exLateSource_started exLateNetEvs
    exLateNet_ready exLateNetEvs_good.1 exLateNetEvs_good.2 exLateNetInputs (hr.ins.trans g1)
    (hr.outs.trans g2) ((Src.SameLate.goodInputs hw ord fill exLateNetInputs _ hr).2 g4)
    (fun j hj => by rw [(hr.processors j).2.1]; exact g5 j hj)
  refine ⟨⟨(this 1 (by decide)).2.1, (this 2 (by decide)).2.1, ?_⟩, ?_⟩
  · rw [(this 1 (by decide)).2.2, hr.cycles, g3]; rfl
  · rw [(hr.rounds (oc := true) hw ord fill exLateNetEvs.length exLateNetInputs).line]
    decide +kernel

example := C149_sent true exDuo exWires ord fill exLateSource exLateSource_started exLateNetEvs
  exLateNetEvs_good.1 1 (by decide)
example := C149_received true exDuo exWires ord fill exLateSource exLateSource_started exLateNetEvs
  exLateNetEvs_good.1 (by
    have hr : Src.SameLate (exLateSource.run true exWires ord fill 0 exLateNetEvs) exLateNetRun :=
      Src.SameLate.run (by decide) ord fill exLateNetEvs 0 exLateSource_same
    rw [hr.cycles, exLateNetRun_good.2.2.1]) 2 (by decide)
example := by
  have hr : Src.SameLate (exLateSource.run true exWires ord fill 0 exLateNetEvs) exLateNetRun :=
    Src.SameLate.run (by decide) ord fill exLateNetEvs 0 exLateSource_same
  obtain ⟨g1, g2, g3, g4, -⟩ := exLateNetRun_good
  exact C149_read true exDuo exWires ord fill exLateSource exLateSource_started exLateNetEvs
    exLateNet_ready exLateNetEvs_good.1 exLateNetEvs_good.2 _ (by rw [hr.cycles, g3]) (hr.ins.trans g1)
    (hr.outs.trans g2) ((Src.SameLate.goodInputs (by decide) ord fill _ _ hr).2
      ⟨g4.1, g4.2.1, trivial⟩) 2 (by decide)
example := C149_early true exDuo exWires ord fill exLateSource exLateSource_started [.write 1 [1#8]]
  (fun pi po h => by simp at h) (by simp [Spec.Src.LateNet.run, Spec.Src.LateNet.step, exWires, exLateSource,
    Spec.Src.LateNet.setLine]) 2 (by decide)
example := C149_restarts true exDuo exWires ord fill exLateSource exLateSource_started
  [([.write 1 [1#8], .cycle, .deliver], List.replicate 8 0#16)] (by
    refine (Src.SameLate.sessions (by decide) ord fill exLateSource_same.c 1 _ 0 exLateSource_same).2.2
      ⟨fun pi po h => by simp at h, by decide +kernel, trivial⟩) 1 (by decide)

end

end Ur20
