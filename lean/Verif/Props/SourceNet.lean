import Verif.Spec.SourceNet
import Verif.Props.SourceRuns
import Verif.Props.Network
import Verif.Props.Histories

/-!
# C139: serial devices behind a coupler of the translated source

The guarantees of C95, stated of the functions of the translated source (`Verif/Source`) only.
-/

namespace Ur20

open Spec

open Src.ur20_fbc_mod_tcp (embed new_eq)

open scoped List

namespace Src

/-- The system with the translated source and the one with the model are in the same state. -/
structure SameNet (s : Spec.Src.Net) (t : Spec.Net) : Prop where
  c : ∃ i, s.c = embed i ∧ Imp.SameC i t.c
  cycles : s.cycles = t.cycles
  out : s.out = t.out
  pending : s.pending = t.pending
  line : s.line = t.line

theorem SameNet.setLine {s : Spec.Src.Net} {t : Spec.Net} (h : SameNet s t) (j : Nat) (l : Line) :
    SameNet (s.setLine j l) (t.setLine j l) where
  c := h.c
  cycles := h.cycles
  out := h.out
  pending := h.pending
  line := by simp only [Spec.Src.Net.setLine, Spec.Net.setLine, h.line]

theorem SameNet.withC {s : Spec.Src.Net} {t : Spec.Net} (h : SameNet s t) {c i d}
    (hc : c = embed i) (hs : Imp.SameC i d) : SameNet { s with c := c } { t with c := d } where
  c := ⟨i, hc, hs⟩
  cycles := h.cycles
  out := h.out
  pending := h.pending
  line := h.line

/-- A call that is not a cycle. -/
theorem SameNet.called {s : Spec.Src.Net} {t : Spec.Net} (h : SameNet s t) (oc : Bool)
    (ord : Imp.Orders) (fill : Nat → Byte) (op : COp) (hop : op.IsCall) :
    SameNet { s with c := (Spec.Src.call oc s.c ord fill op).1 } { t with c := op.apply oc t.c } ∧
      (Spec.Src.call oc s.c ord fill op).2 = (Spec.call oc t.c op).2 := by
  obtain ⟨i, hi, hs⟩ := h.c
  obtain ⟨h1, h2⟩ := call_model oc hs ord fill op
  obtain ⟨i', h3, h4⟩ := h2 (call_no_panic oc _ op hop)
  rw [hi]
  exact ⟨h.withC h4 h3, h1⟩

/-- A cycle. -/
theorem SameNet.next {s : Spec.Src.Net} {t : Spec.Net} (h : SameNet s t) (oc : Bool)
    (ord : Imp.Orders) (fill : Nat → Byte) (pi po : List Word) :
    (Spec.Src.call oc s.c ord fill (.next pi po)).2 = .next (t.c.next oc pi po).2 ∧
    ((t.c.next oc pi po).2 ≠ .panic →
      SameNet { s with c := (Spec.Src.call oc s.c ord fill (.next pi po)).1 }
        { t with c := (t.c.next oc pi po).1 }) := by
  obtain ⟨i, hi, hs⟩ := h.c
  obtain ⟨h1, h2⟩ := call_model oc hs ord fill (.next pi po)
  rw [hi]
  refine ⟨h1, fun hp => ?_⟩
  obtain ⟨i', h3, h4⟩ := h2 (by
    simp only [Spec.call]
    cases hr : (t.c.next oc pi po).2 with
    | ok a => rfl
    | err a => rfl
    | panic => exact absurd hr hp)
  exact h.withC h4 h3

theorem elsewhere_isCall {j : Nat} {op : COp} (h : op.Elsewhere j) : op.IsCall := by
  cases op <;> simp_all [COp.Elsewhere, COp.IsCall]

theorem SameNet.step {s : Spec.Src.Net} {t : Spec.Net} (h : SameNet s t) (oc : Bool)
    (cfg : CouplerConfig) (w : Wiring) (hw : w.modules ≠ []) (ord : Imp.Orders) (fill : Nat → Byte)
    (e : NEv) : SameNet (s.step oc cfg w ord fill e) (t.step oc cfg w e) := by
  obtain ⟨c, cycles, out, pending, line⟩ := s
  obtain ⟨d, cycles', out', pending', line'⟩ := t
  obtain ⟨h1, h2, h3, h4, h5⟩ : (∃ i, c = embed i ∧ Imp.SameC i d) ∧ cycles = cycles' ∧
      out = out' ∧ pending = pending' ∧ line = line' := ⟨h.c, h.cycles, h.out, h.pending, h.line⟩
  subst h2 h3 h4 h5
  clear h1
  cases e with
  | write j buf =>
    simp only [Spec.Src.Net.step, Spec.Net.step]
    split_ifs
    · obtain ⟨h1, -⟩ := h.called oc ord fill (.write j buf) trivial
      exact h1.setLine j _
    · exact h
  | read j n =>
    simp only [Spec.Src.Net.step, Spec.Net.step]
    split_ifs
    · obtain ⟨h1, h2⟩ := h.called oc ord fill (.read j n) trivial
      generalize Spec.Src.call oc c ord fill (.read j n) = r at h1 h2 ⊢
      obtain ⟨c', r⟩ := r
      simp only at h1 h2
      subst h2
      simp only [Spec.call, COp.apply] at h1 ⊢
      cases hr : d.read j n with
      | err e => exact h
      | panic => exact h
      | ok p =>
        obtain ⟨d', b⟩ := p
        rw [hr] at h1
        cases b with
        | none => exact h
        | some bytes =>
          simp only at h1 ⊢
          exact h1.setLine j _
    · exact h
  | set j v =>
    simp only [Spec.Src.Net.step, Spec.Net.step]
    split_ifs
    · obtain ⟨h1, -⟩ := h.called oc ord fill (.setOutput ⟨j, 0⟩ v) trivial
      exact h1.setLine j _
    · exact h
  | other op =>
    simp only [Spec.Src.Net.step, Spec.Net.step]
    split_ifs with ho
    · obtain ⟨j, hj⟩ := List.exists_mem_of_ne_nil _ hw
      exact (h.called oc ord fill op (elsewhere_isCall (ho j hj))).1
    · exact h
  | start pi =>
    simp only [Spec.Src.Net.step, Spec.Net.step]
    obtain ⟨h1, h2⟩ := h.next oc ord fill pi out
    generalize Spec.Src.call oc c ord fill (.next pi out) = r at h1 h2 ⊢
    obtain ⟨c', r⟩ := r
    simp only at h1 h2
    subst h1
    cases pending with
    | some img => exact h
    | none =>
      generalize d.next oc pi out = r at h2 ⊢
      obtain ⟨d', r⟩ := r
      cases r with
      | err e => exact h
      | panic => exact h
      | ok img =>
        have h3 := h2 (by simp)
        simp only
        have hsh : Spec.Src.Net.Shows w ⟨c, cycles, out, none, line⟩ pi ↔
          Spec.Net.Shows w ⟨d, cycles, out, none, line⟩ pi := Iff.rfl
        by_cases hs : Spec.Net.Shows w ⟨d, cycles, out, none, line⟩ pi
        · rw [if_pos hs, if_pos (hsh.2 hs)]
          exact ⟨h3.c, rfl, rfl, rfl, rfl⟩
        · rw [if_neg hs, if_neg (fun h => hs (hsh.1 h))]
          exact h
  | failing pi =>
    simp only [Spec.Src.Net.step, Spec.Net.step]
    obtain ⟨h1, h2⟩ := h.next oc ord fill pi out
    generalize Spec.Src.call oc c ord fill (.next pi out) = r at h1 h2 ⊢
    obtain ⟨c', r⟩ := r
    simp only at h1 h2
    subst h1
    cases pending with
    | some img => exact h
    | none =>
      generalize d.next oc pi out = r at h2 ⊢
      obtain ⟨d', r⟩ := r
      cases r with
      | ok img => exact h
      | panic => exact h
      | err e =>
        have h3 := h2 (by simp)
        simp only
        split_ifs
        · exact ⟨h3.c, rfl, rfl, rfl, rfl⟩
        · exact ⟨h3.c, rfl, rfl, rfl, rfl⟩
        · exact h
  | finish =>
    simp only [Spec.Src.Net.step, Spec.Net.step]
    cases pending with
    | none => exact h
    | some img => exact ⟨h.c, h.cycles, rfl, rfl, h.line⟩
  | lost => exact ⟨h.c, h.cycles, h.out, rfl, h.line⟩
  | crash =>
    simp only [Spec.Src.Net.step, Spec.Net.step]
    rw [new_eq]
    have hs := Imp.new_same cfg
    cases hn : Ur20.Coupler.new cfg with
    | err e => rw [hn] at hs; rw [hs]; exact h
    | panic => rw [hn] at hs; rw [hs]; exact h
    | ok d0 =>
      rw [hn] at hs
      obtain ⟨i, h1, h2⟩ := hs
      rw [h1]
      exact ⟨⟨i, rfl, h2⟩, rfl, rfl, rfl, rfl⟩
  | take j =>
    simp only [Spec.Src.Net.step, Spec.Net.step]
    split_ifs
    · cases outFrame (w.wire j).len (w.wire j).oo out with
      | some f =>
        simp only
        split_ifs
        · exact h.setLine j _
        · exact h
      | none => exact h
    · exact h
  | post j seg =>
    simp only [Spec.Src.Net.step, Spec.Net.step]
    split_ifs
    · cases outFrame (w.wire j).len (w.wire j).oo out with
      | some f =>
        simp only
        split_ifs
        · exact h.setLine j _
        · exact h
      | none => exact h
    · exact h
  | hide j =>
    simp only [Spec.Src.Net.step, Spec.Net.step]
    split_ifs
    · cases outFrame (w.wire j).len (w.wire j).oo out with
      | some f =>
        simp only
        split_ifs
        · exact h.setLine j _
        · exact h
      | none => exact h
    · exact h

theorem SameNet.run {oc : Bool} {cfg : CouplerConfig} {w : Wiring} (hw : w.modules ≠ [])
    (ord : Nat → Imp.Orders) (fill : Nat → Nat → Byte) (evs : List NEv) :
    ∀ (k : Nat) {s : Spec.Src.Net} {t : Spec.Net}, SameNet s t →
      SameNet (s.run oc cfg w ord fill k evs) (t.run oc cfg w evs) := by
  induction evs with
  | nil => intro k s t h; exact h
  | cons e evs ih => intro k s t h; exact ih (k + 1) (h.step oc cfg w hw (ord k) (fill k) e)

theorem SameNet.onlyUndecodable {oc : Bool} {cfg : CouplerConfig} {w : Wiring}
    (hw : w.modules ≠ []) (ord : Nat → Imp.Orders) (fill : Nat → Nat → Byte) (evs : List NEv) :
    ∀ (k : Nat) {s : Spec.Src.Net} {t : Spec.Net}, SameNet s t →
      (s.OnlyUndecodable oc cfg w ord fill k evs ↔ t.OnlyUndecodable oc cfg w evs) := by
  induction evs with
  | nil => intro k s t h; exact Iff.rfl
  | cons e evs ih =>
    intro k s t h
    refine and_congr ?_ (ih (k + 1) (h.step oc cfg w hw (ord k) (fill k) e))
    cases e <;> first | exact Iff.rfl | (simp only [h.out])

theorem SameNet.rounds {oc : Bool} {cfg : CouplerConfig} {w : Wiring} (hw : w.modules ≠ [])
    (ord : Nat → Imp.Orders) (fill : Nat → Nat → Byte) {s : Spec.Src.Net} {t : Spec.Net}
    (h : SameNet s t) (k : Nat) (pis : List (List Word)) :
    SameNet (s.rounds oc cfg w ord fill k pis) (t.rounds oc cfg w pis) := by
  have e : t.rounds oc cfg w pis = t.run oc cfg w (pis.flatMap (Spec.Src.Net.roundEvents w)) := by
    clear h
    induction pis generalizing t with
    | nil => rfl
    | cons pi pis ih =>
      have e1 : t.rounds oc cfg w (pi :: pis) = (t.round oc cfg w pi).rounds oc cfg w pis := rfl
      rw [e1, ih, List.flatMap_cons]
      unfold Spec.Net.round Spec.Net.run
      exact (List.foldl_append ..).symm
  rw [e]
  exact SameNet.run hw ord fill _ k h

theorem SameNet.goodInputs {oc : Bool} {cfg : CouplerConfig} {w : Wiring} (hw : w.modules ≠ [])
    (ord : Nat → Imp.Orders) (fill : Nat → Nat → Byte) (pis : List (List Word)) :
    ∀ (k : Nat) {s : Spec.Src.Net} {t : Spec.Net}, SameNet s t →
      (s.GoodInputs oc cfg w ord fill k pis ↔ t.GoodInputs oc cfg w pis) := by
  induction pis with
  | nil => intro k s t h; exact Iff.rfl
  | cons pi pis ih =>
    intro k s t h
    refine and_congr Iff.rfl (and_congr ?_
      (ih _ (SameNet.run hw ord fill (Spec.Src.Net.roundEvents w pi) k h)))
    unfold Spec.Src.Net.Shows Spec.Net.Shows
    rw [h.line]

theorem SameNet.processors {s : Spec.Src.Net} {t : Spec.Net} (h : SameNet s t) (j : Nat) :
    s.queued j = t.queued j ∧ s.segments j = t.segments j ∧ s.buffered j = t.buffered j := by
  obtain ⟨i, hi, hs⟩ := h.c
  have e : r_get s.c.processors j = t.c.processors j := by
    rw [hi]; exact hs.processors j
  unfold Spec.Src.Net.queued Spec.Src.Net.segments Spec.Src.Net.buffered Spec.Net.queued
    Spec.Net.segments Spec.Net.buffered
  rw [e]
  exact ⟨rfl, rfl, rfl⟩

theorem SameNet.inFlight {s : Spec.Src.Net} {t : Spec.Net} (h : SameNet s t) (w : Wiring)
    (j : Nat) : s.inFlight w j = t.inFlight w j := by
  unfold Spec.Src.Net.inFlight Spec.Net.inFlight
  rw [h.out, h.line, h.pending]
  rfl

theorem net_initial {oc : Bool} {cfg : CouplerConfig} {w : Wiring} {s : Spec.Src.Net}
    (h : s.Initial oc cfg w) : ∃ t : Spec.Net, t.Initial cfg w ∧ SameNet s t := by
  obtain ⟨d, i, h0, h1, hs⟩ := new_model h.c
  refine ⟨⟨d, s.cycles, s.out, s.pending, s.line⟩, ?_, ⟨⟨i, h1, hs⟩, rfl, rfl, rfl, rfl⟩⟩
  have hr : ReachableFrom oc cfg d := ⟨d, [], h0, rfl⟩
  exact
    { c := h0
      distinct := h.distinct
      serial := by
        intro j hj
        obtain ⟨par, a1, a2, a3, a4, a5, a6, a7⟩ := h.serial j hj
        rw [← a2]
        exact serialAt_of_configured hr a1 a4 a3 ⟨a6, a5⟩ a7
      disjoint := fun j hj => kept_infos hr (h.disjoint j hj)
      cycles := h.cycles
      out := h.out
      pending := h.pending
      devices := h.devices
      logs := h.logs }

end Src

section

variable (oc : Bool) (cfg : CouplerConfig) (w : Wiring) (ord : Nat → Imp.Orders)
  (fill : Nat → Nat → Byte) (s : Spec.Src.Net) (h : s.Initial oc cfg w) (evs : List NEv)

include h

/-- C139: whatever cycles fail, whatever images are lost and wherever the application crashes, every
device takes over bytes that were written to its own module, each at most once and in order. -/
theorem C139_order (j : Nat) (hj : j ∈ w.modules) :
    let r := s.run oc cfg w ord fill 0 evs
    (r.line j).received ++ r.inFlight w j ++ r.queued j <+ (r.line j).written := by
  obtain ⟨t, ht, hs⟩ := Src.net_initial h
  have hr := Src.SameNet.run (oc := oc) (cfg := cfg) (List.ne_nil_of_mem hj) ord fill evs 0 hs
  have := C95_order oc cfg w t ht evs j hj
  simp only at this ⊢
  rwa [hr.line, hr.inFlight, (hr.processors j).1]

/-- C139: if nothing is lost, every device takes over exactly what was written to its own module. -/
theorem C139_exactly_once (hu : s.OnlyUndecodable oc cfg w ord fill 0 evs) (j : Nat)
    (hj : j ∈ w.modules) :
    let r := s.run oc cfg w ord fill 0 evs
    (r.line j).received ++ r.inFlight w j ++ r.queued j = (r.line j).written := by
  obtain ⟨t, ht, hs⟩ := Src.net_initial h
  have hw := List.ne_nil_of_mem hj
  have hr := Src.SameNet.run (oc := oc) (cfg := cfg) hw ord fill evs 0 hs
  have := C95_exactly_once oc cfg w t ht evs
    ((Src.SameNet.onlyUndecodable hw ord fill evs 0 hs).1 hu) j hj
  simp only at this ⊢
  rwa [hr.line, hr.inFlight, (hr.processors j).1]

/-- C139: what is read from a module comes from its own device, each segment at most once and in
order. -/
theorem C139_receive_order (j : Nat) (hj : j ∈ w.modules) :
    let r := s.run oc cfg w ord fill 0 evs
    (r.line j).delivered ++ r.buffered j <+ (r.line j).seen := by
  obtain ⟨t, ht, hs⟩ := Src.net_initial h
  have hr := Src.SameNet.run (oc := oc) (cfg := cfg) (List.ne_nil_of_mem hj) ord fill evs 0 hs
  have := C95_receive_order oc cfg w t ht evs j hj
  simp only at this ⊢
  rwa [hr.line, (hr.processors j).2.2]

/-- C139: without crashes, what is read from a module is exactly what its own device showed. -/
theorem C139_receive (hc : NoCrashesN evs) (j : Nat) (hj : j ∈ w.modules) :
    let r := s.run oc cfg w ord fill 0 evs
    (r.line j).delivered ++ r.buffered j = (r.line j).seen := by
  obtain ⟨t, ht, hs⟩ := Src.net_initial h
  have hr := Src.SameNet.run (oc := oc) (cfg := cfg) (List.ne_nil_of_mem hj) ord fill evs 0 hs
  have := C95_receive oc cfg w t ht evs hc j hj
  simp only at this ⊢
  rwa [hr.line, (hr.processors j).2.2]

/-- C139: after any history, rounds of a cycle in which every device looks at the image deliver
everything on all modules at once: as many as the longest queue needs. -/
theorem C139_delivered (hv : AcceptedValuesN cfg evs) :
    let r := s.run oc cfg w ord fill 0 evs
    r.pending = none → OutputsReady cfg r.out → 2 ≤ r.cycles →
    ∀ pis, r.GoodInputs oc cfg w ord fill evs.length pis →
      (∀ j ∈ w.modules, 1 + r.segments j + ((sentBytes (r.line j).waiting).length +
        capacity (w.wire j).len - 1) / capacity (w.wire j).len ≤ pis.length) →
      ∀ j ∈ w.modules, ((r.rounds oc cfg w ord fill evs.length pis).line j).received =
        (r.line j).received ++ r.inFlight w j ++ r.queued j ++ sentBytes (r.line j).waiting := by
  intro r hp ho hc pis hg hn j hj
  obtain ⟨t, ht, hs⟩ := Src.net_initial h
  have hw := List.ne_nil_of_mem hj
  have hr := Src.SameNet.run (oc := oc) (cfg := cfg) hw ord fill evs 0 hs
  have h2 := hr.rounds (oc := oc) (cfg := cfg) hw ord fill evs.length pis
  have := C95_delivered oc cfg w t ht evs hv (by rw [← hr.pending]; exact hp)
    (by rw [← hr.out]; exact ho) (by rw [← hr.cycles]; exact hc) pis
    ((Src.SameNet.goodInputs hw ord fill pis _ hr).1 hg)
    (fun j hj => by rw [← (hr.processors j).2.1, ← hr.line]; exact hn j hj) j hj
  rw [h2.line, this, ← hr.line, ← hr.inFlight, ← (hr.processors j).1]

/-- C139: since the last restart of the application nothing is lost: what has been read from a module
since and what is buffered are exactly what its own device has shown since. -/
theorem C139_since_restart (evs' : List NEv) (hc : NoCrashesN evs') (j : Nat)
    (hj : j ∈ w.modules) :
    let a := s.run oc cfg w ord fill 0 (evs ++ [.crash])
    let r := s.run oc cfg w ord fill 0 (evs ++ [.crash] ++ evs')
    ∃ read shown, (r.line j).delivered = (a.line j).delivered ++ read ∧
      (r.line j).seen = (a.line j).seen ++ shown ∧ read ++ r.buffered j = shown := by
  obtain ⟨t, ht, hs⟩ := Src.net_initial h
  have hw := List.ne_nil_of_mem hj
  have ha := Src.SameNet.run (oc := oc) (cfg := cfg) hw ord fill (evs ++ [.crash]) 0 hs
  have hr := Src.SameNet.run (oc := oc) (cfg := cfg) hw ord fill (evs ++ [.crash] ++ evs') 0 hs
  have := C95_since_restart oc cfg w t ht evs evs' hc j hj
  simp only at this ⊢
  rwa [hr.line, ha.line, (hr.processors j).2.2]

end

/-! ### An example -/

/-- The coupler of `exDuo`. -/
def exDuoSource : Src.ur20_fbc_mod_tcp.Coupler :=
  match Src.ur20_fbc_mod_tcp.Coupler.new true exDuo with
  | .ok c => c
  | _ => ⟨[], [], [], [], [], [], 0⟩

theorem exDuoSource_new : Src.ur20_fbc_mod_tcp.Coupler.new true exDuo = .ok exDuoSource := by
  unfold exDuoSource
  obtain ⟨a, ha⟩ : ∃ a, Src.ur20_fbc_mod_tcp.Coupler.new true exDuo = .ok a := by
    have hs := Imp.new_same exDuo
    rw [exDuo_new] at hs
    obtain ⟨i, h1, -⟩ := hs
    rw [new_eq, h1]
    exact ⟨_, rfl⟩
  rw [ha]

/-- The system of the example of C95, with the translated source. -/
def exSourceNet : Spec.Src.Net where
  c := exDuoSource
  cycles := 0
  out := List.replicate 9 0#16
  pending := none
  line _ := ⟨0, 0, false, [], [], [], [], [], true, none⟩

theorem exSourceNet_initial : exSourceNet.Initial true exDuo exWires where
  c := exDuoSource_new
  distinct := by decide
  serial := by
    intro j hj
    simp only [exWires, List.mem_cons, List.not_mem_nil, or_false] at hj
    rcases hj with rfl | rfl <;>
    exact ⟨List.replicate 10 0, ⟨rfl, rfl, rfl, rfl⟩, rfl, by decide, by decide, by decide,
      by decide, by decide⟩
  disjoint := fun j _ => exDuo_outputs j
  cycles := rfl
  out := exNet_initial.out
  pending := rfl
  devices := exNet_initial.devices
  logs := exNet_initial.logs

theorem exSourceNet_same : Src.SameNet exSourceNet exNet := by
  obtain ⟨d, i, h0, h1, hs⟩ := Src.new_model exDuoSource_new
  rw [exDuo_new] at h0
  cases h0
  exact ⟨⟨i, h1, hs⟩, rfl, rfl, rfl, rfl⟩

section

variable (ord : Nat → Imp.Orders) (fill : Nat → Nat → Byte)

/-- Seven bytes wait for the device of module 1 and two for that of module 2; after three rounds both
have them, whatever the orders of iteration and the buffers. -/
example : let r := exSourceNet.run true exDuo exWires ord fill 0 exDuoEvs
    let r' := r.rounds true exDuo exWires ord fill exDuoEvs.length exDuoInputs
    (r'.line 1).received = [1#8, 2#8, 3#8, 4#8, 5#8, 6#8, 7#8] ∧
      (r'.line 2).received = [8#8, 9#8] := by
  have hw : exWires.modules ≠ [] := by decide
  have hr : Src.SameNet (exSourceNet.run true exDuo exWires ord fill 0 exDuoEvs) exDuoNet :=
    Src.SameNet.run hw ord fill exDuoEvs 0 exSourceNet_same
  obtain ⟨g1, g2, g3, g4, g5, g6, g7⟩ := exDuoNet_good
  have := C139_delivered true exDuo exWires ord fill exSourceNet exSourceNet_initial exDuoEvs
    exDuoEvs_calm.2.2 (hr.pending.trans g1) (by rw [hr.out]; exact g2)
    (hr.cycles.trans g3).ge exDuoInputs
    ((Src.SameNet.goodInputs hw ord fill exDuoInputs exDuoEvs.length hr).2 g4) (by
      intro j hj
      simp only [exWires, List.mem_cons, List.not_mem_nil, or_false] at hj
      rw [(hr.processors j).2.1, hr.line]
      rcases hj with rfl | rfl <;> exact (by decide +kernel))
  rw [hr.line] at this
  have e1 := this 1 (by decide)
  have e2 := this 2 (by decide)
  rw [hr.inFlight, (hr.processors 1).1] at e1
  rw [hr.inFlight, (hr.processors 2).1] at e2
  exact ⟨e1.trans (by decide +kernel), e2.trans (by decide +kernel)⟩

example := C139_order true exDuo exWires ord fill exSourceNet exSourceNet_initial
  (exDuoEvs ++ [.lost, .crash]) 1 (by decide)
example := C139_exactly_once true exDuo exWires ord fill exSourceNet exSourceNet_initial exDuoEvs
  ((Src.SameNet.onlyUndecodable (by decide) ord fill exDuoEvs 0 exSourceNet_same).2 exDuoEvs_calm.1)
  1 (by decide)
example := C139_receive_order true exDuo exWires ord fill exSourceNet exSourceNet_initial
  (exDuoEvs ++ [.crash]) 2 (by decide)
example := C139_receive true exDuo exWires ord fill exSourceNet exSourceNet_initial exDuoEvs
  exDuoEvs_calm.2.1 2 (by decide)
example := C139_since_restart true exDuo exWires ord fill exSourceNet exSourceNet_initial exDuoEvs
  exDuoEvs exDuoEvs_calm.2.1 2 (by decide)

end

end Ur20
