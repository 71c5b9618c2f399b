import Verif.Props.LatePlant
import Verif.Lemmas.LateTwin

/-!
# C133: serial data with late and lost images and restarts of the application
-/

namespace Ur20

open Com Spec Coupler
open scoped List

/-- What the device has taken over and the segment waiting in its image. -/
theorem late_waiting {len : ProcessDataLength} {s : Late} (h : s.Started len) (evs : List LateEv) :
    ∃ old, (old = [] ∨ old = s.waiting) ∧
      (s.run evs).received ++ (s.run evs).waiting <+: old ++ (s.run evs).written := by
  have hv := (Late.LTx.initial h.cleared).run evs
  have hT := h.twin.run evs
  obtain ⟨old, hold, hw⟩ := hT.waits hv
  refine ⟨old, hold, hw.trans ?_⟩
  rw [hT.written, ← hv.bytes]
  exact (List.prefix_append_right_inj old).2 (List.prefix_append _ _)

/-- C133, sending: however late the images are, and whatever the image of the device carries when the
application starts: the bytes the device has taken over, followed by those of the last returned image it
has not taken over yet and those still queued, are the bytes written. Only the segment that was waiting
at the start can come before them, once and completely. -/
theorem C133_sent (len : ProcessDataLength) (s : Late) (h : s.Started len) (evs : List LateEv) :
    ∃ old, (old = [] ∨ old = s.waiting) ∧
      (s.run evs).received ++ (s.run evs).inFlight ++ (s.run evs).p.outData.flatten =
        old ++ (s.run evs).written := by
  have hv := (Late.LTx.initial h.cleared).run evs
  have hT := h.twin.run evs
  obtain ⟨old, hold, hb⟩ := hT.sent hv
  refine ⟨old, hold, ?_⟩
  rw [hb, hT.p, hT.written, ← hv.bytes, Late.lqueued, List.append_assoc]

/-- C133, receiving: also with data in the image of the device at the start, the application gets each
segment presented after the initialisation exactly once and in order, except for the newest one, which
it has not seen yet. -/
theorem C133_received (len : ProcessDataLength) (s : Late) (h : s.Started len) (evs : List LateEv)
    (hc : 2 ≤ (s.run evs).cycles) :
    ∃ skipped got ahead, (s.run evs).shown = skipped ++ got ++ ahead ∧
      skipped.length ≤ (s.run evs).early ∧ ahead.length ≤ 1 ∧
      (s.run evs).delivered ++ (s.run evs).p.inData = got.flatten := by
  have hT := h.twin.run evs
  rw [hT.shown, hT.early, hT.delivered, hT.p]
  exact C129_received len _ h.cleared evs (by rw [← hT.cycles]; exact hc)

/-- C133, receiving: nothing of a previous run of the application is received: before the end of the
initialisation there are no data. -/
theorem C133_early (len : ProcessDataLength) (s : Late) (h : s.Started len) (evs : List LateEv)
    (hc : (s.run evs).cycles < 2) : (s.run evs).delivered ++ (s.run evs).p.inData = [] := by
  have hT := h.twin.run evs
  rw [hT.delivered, hT.p]
  exact C129_early len _ h.cleared evs (by rw [← hT.cycles]; exact hc)

/-- C133, receiving: when no image of the inputs is on the way, one image that arrives and one cycle are
enough to have received everything the device has presented. -/
theorem C133_read (len : ProcessDataLength) (s : Late) (h : s.Started len) (evs : List LateEv)
    (hc : 2 ≤ (s.run evs).cycles) (hi : (s.run evs).ins = []) (nearlyFull ready : Bool) :
    let r := (s.run evs).run [.sample nearlyFull ready, .arrive, .cycle]
    ∃ skipped got, r.shown = skipped ++ got ∧ skipped.length ≤ r.early ∧
      r.delivered ++ r.p.inData = got.flatten := by
  intro r
  have hv := Late.LTx.initial h.cleared
  have hT := h.twin.run evs
  have hT' := hT.run [.sample nearlyFull ready, .arrive, .cycle]
  rw [show r.shown = _ from hT'.shown, show r.early = _ from hT'.early,
    show r.delivered = _ from hT'.delivered, show r.p = _ from hT'.p]
  exact C129_read len _ h.cleared evs (by rw [← hT.cycles]; exact hc) (by rw [← hT.ins]; exact hi)
    nearlyFull ready

/-- C133, progress: whatever the image of the device carried at the start and whatever was late or lost,
when no image is on the way then a number of rounds bounded by the queue brings everything written to the
device. -/
theorem C133_progress (len : ProcessDataLength) (s : Late) (h : s.Started len) (evs : List LateEv)
    (hi : (s.run evs).ins = []) (ho : (s.run evs).outs = []) (flags : List (Bool × Bool))
    (hk : 3 + (s.run evs).p.outData.length ≤ flags.length) :
    (∃ old, (old = [] ∨ old = s.waiting) ∧
      ((s.run evs).rounds flags).received = old ++ (s.run evs).written) ∧
    ((s.run evs).rounds flags).p.outData = [] := by
  have hv := Late.LTx.initial h.cleared
  have hT := h.twin.run evs
  have hT' := hT.run (flags.flatMap Late.round)
  have hot : (s.cleared.run evs).outs = [] := by
    obtain ⟨olds, news, i1, i2, -⟩ := hT.images
    have e1 := congrArg List.length i1
    have e2 := congrArg List.length i2
    rw [ho] at e1
    simp only [List.length_cons, List.length_append, List.length_map, List.length_nil] at e1 e2
    exact List.length_eq_zero_iff.1 (by omega)
  obtain ⟨p1, p2⟩ := C129_progress len _ h.cleared evs (by rw [← hT.ins]; exact hi) hot flags
    (by rw [← hT.p]; exact hk)
  obtain ⟨old, r1, r2⟩ := hT'.received
  refine ⟨⟨old, ?_, ?_⟩, ?_⟩
  · rcases r2 with r2 | ⟨r2, r3⟩
    · exact .inl r2
    · exact .inr (by rw [Late.waiting, if_pos r2, r3])
  · rw [Late.rounds, r1, hT.written, ← p1, Late.rounds]
  · rw [Late.rounds, hT'.p]
    exact p2

/-- A restart leads to such a state. -/
theorem Spec.Late.Started.restart {len : ProcessDataLength} {s : Late} (h : s.Started len)
    (evs : List LateEv) (flags : Bool × Bool) : ((s.run evs).restart len flags).Started len where
  p := rfl
  kept := rfl
  inp := ⟨flags.1, flags.2, by simp [Late.restart, Late.input]⟩
  ins := rfl
  outs := rfl
  ack := by
    have hT := h.twin.run evs
    show (s.run evs).ack < 4
    rw [hT.ack]
    exact ((Late.LTx.initial h.cleared).run evs).ack
  rxCnt := by
    have hT := h.twin.run evs
    show (s.run evs).rxCnt < 4
    rw [hT.rxCnt]
    exact ((Late.LRx.initial h.cleared).run evs).cnt
  shown := rfl
  logs := ⟨rfl, rfl, rfl, rfl⟩

/-- C133, restarts: with any number of restarts, nothing that was written in any run of the application
is taken over twice or out of order: what the device has taken over altogether are, in order and each at
most once, bytes of the segment waiting at the start and of what was written altogether. -/
theorem C133_restarts (len : ProcessDataLength) (s : Late) (h : s.Started len)
    (runs : List (List LateEv × Bool × Bool)) :
    ((Late.sessions len s runs).map (·.2)).flatten <+
      s.waiting ++ ((Late.sessions len s runs).map (·.1)).flatten := by
  induction runs generalizing s with
  | nil => exact List.nil_sublist _
  | cons x runs ih =>
    obtain ⟨evs, flags⟩ := x
    obtain ⟨old, o1, o2⟩ := late_waiting h evs
    have hr := ih _ (h.restart evs flags)
    have hw : ((s.run evs).restart len flags).waiting = (s.run evs).waiting := rfl
    rw [hw] at hr
    simp only [Late.sessions, List.map_cons, List.flatten_cons]
    refine ((List.Sublist.refl _).append hr).trans ?_
    rw [← List.append_assoc, ← List.append_assoc]
    refine List.Sublist.append (o2.sublist.trans ?_) (List.Sublist.refl _)
    rcases o1 with rfl | rfl
    · exact List.sublist_append_right _ _
    · exact List.Sublist.refl _

namespace Spec.LatePlant

theorem Started.lsim {oc : Bool} {cfg : CouplerConfig} {j : Nat} {len : ProcessDataLength} {oi oo : Word}
    {s : LatePlant} (h : s.Started cfg j len oi oo) :
    ∃ t : Late, t.Started len ∧ LSim oc cfg j len oi oo s t ∧ t.waiting = s.waiting len oo := by
  obtain ⟨f, hf1⟩ := h.out
  obtain ⟨i, hi1, q1, q2, q3, q4⟩ := h.inp
  have hp : s.c.processors j = some (MessageProcessor.new len) := by
    obtain ⟨cm, hm, rfl, -⟩ := h.serial
    obtain ⟨-, -, ms, -, hms⟩ := new_ok h.c
    rw [hms] at hm ⊢
    simp only [Coupler.initial]
    have : ms[j]? = some (Module.com cm) := hm.1
    rw [this]
    rfl
  refine ⟨⟨MessageProcessor.new len, f, i, [], [], f, s.ack, s.rxCnt, s.avail, s.cycles, s.written,
    s.received, s.shown, s.early, s.delivered⟩, ⟨rfl, rfl, ⟨i.bufferNearlyFull, i.ready, ?_⟩, rfl,
    rfl, h.ack, h.rxCnt, h.shown, h.logs⟩,
    ⟨⟨s.c, [], h.c, rfl⟩, h.serial, h.disjoint, hp, ((C13_success cfg).2 s.c h.c).2.2.2.2.2 _,
      by rw [h.kept]; exact hf1, hi1, by rw [h.ins]; rfl, by rw [h.outs]; rfl, hf1,
      rfl, rfl, rfl, rfl, rfl, rfl, rfl, rfl, rfl⟩, ?_⟩
  · obtain ⟨x1, x2, x3, x4, x5, x6⟩ := i
    simp only at q1 q2 q3 q4
    subst q1 q2 q3 q4
    rfl
  · simp only [Late.waiting, LatePlant.waiting, hf1]

/-- The segment waiting, seen from the serial module. -/
theorem LSim.waiting {oc : Bool} {cfg : CouplerConfig} {j : Nat} {len : ProcessDataLength} {oi oo : Word}
    {s : LatePlant} {t : Late} (h : LSim oc cfg j len oi oo s t) : s.waiting len oo = t.waiting := by
  simp only [Late.waiting, LatePlant.waiting, h.out, h.ack]

/-- A restart leads to such a state. -/
theorem Started.restart {oc : Bool} {cfg : CouplerConfig} {j : Nat} {len : ProcessDataLength} {oi oo : Word}
    {s : LatePlant} (h : s.Started cfg j len oi oo) {evs : List LatePlantEv}
    (hu : OnlyUndecodable oc cfg evs) {pi : List Word}
    (hf : ∃ f, inFrame len oi pi = some f ∧ (s.run oc j len oi oo evs).Presents f) :
    ((s.run oc j len oi oo evs).restart s.c pi).Started cfg j len oi oo := by
  obtain ⟨t, ht, hsim, -⟩ := h.lsim (oc := oc)
  obtain ⟨evs', hs⟩ := hsim.run evs hu
  have hR := ht.restart evs' (false, false)
  obtain ⟨f, hf1, q1, q2, q3, q4⟩ := hf
  refine ⟨h.c, h.serial, h.disjoint, rfl, ⟨_, hs.out⟩, ⟨f, hf1, q1, q2, q3, q4⟩, rfl, rfl, ?_, ?_, rfl,
    ⟨rfl, rfl, rfl, rfl⟩⟩
  · have := hR.ack
    rw [show ((t.run evs').restart len (false, false)).ack = (t.run evs').ack from rfl, hs.ack] at this
    exact this
  · have := hR.rxCnt
    rw [show ((t.run evs').restart len (false, false)).rxCnt = (t.run evs').rxCnt from rfl, hs.rxCnt] at this
    exact this

end Spec.LatePlant

/-- C133 for a whole coupler, sending: whatever the image of the station carries when the application
starts: the bytes the device has taken over, followed by those of the last returned image it has not taken
over yet and those still queued, are the bytes written. Only the segment that was waiting at the start can
come before them, once and completely. -/
theorem C133_coupler_sent (oc : Bool) (cfg : CouplerConfig) (j : Nat) (len : ProcessDataLength)
    (oi oo : Word) (s : LatePlant) (h : s.Started cfg j len oi oo) (evs : List LatePlantEv)
    (hu : LatePlant.OnlyUndecodable oc cfg evs) :
    let r := s.run oc j len oi oo evs
    ∃ old, (old = [] ∨ old = s.waiting len oo) ∧
      r.received ++ r.inFlight len oo ++ r.queued j = old ++ r.written := by
  obtain ⟨t, ht, hsim, hw⟩ := h.lsim (oc := oc)
  obtain ⟨evs', hs⟩ := hsim.run evs hu
  obtain ⟨old, ho, hb⟩ := C133_sent len t ht evs'
  intro r
  rw [hw] at ho
  refine ⟨old, ho, ?_⟩
  rw [hs.received, hs.written] at hb
  rw [← hb]
  simp only [LatePlant.inFlight, LatePlant.queued, Late.inFlight, r, hs.proc, hs.kept, hs.ack]

/-- C133 for a whole coupler, receiving. -/
theorem C133_coupler_received (oc : Bool) (cfg : CouplerConfig) (j : Nat) (len : ProcessDataLength)
    (oi oo : Word) (s : LatePlant) (h : s.Started cfg j len oi oo) (evs : List LatePlantEv)
    (hu : LatePlant.OnlyUndecodable oc cfg evs)
    (hc : 2 ≤ (s.run oc j len oi oo evs).cycles) :
    let r := s.run oc j len oi oo evs
    ∃ skipped got ahead, r.shown = skipped ++ got ++ ahead ∧ skipped.length ≤ r.early ∧
      ahead.length ≤ 1 ∧ r.delivered ++ r.buffered j = got.flatten := by
  obtain ⟨t, ht, hsim, -⟩ := h.lsim (oc := oc)
  obtain ⟨evs', hs⟩ := hsim.run evs hu
  rw [← hs.cycles] at hc
  obtain ⟨a, b, d, h1, h2, h3, h4⟩ := C133_received len t ht evs' hc
  intro r
  refine ⟨a, b, d, by rw [← h1, hs.shown], by rw [← hs.early]; exact h2, h3, ?_⟩
  rw [← h4, hs.delivered]
  simp only [LatePlant.buffered, r, hs.proc]

/-- C133 for a whole coupler, receiving: before the end of the initialisation nothing is received. -/
theorem C133_coupler_early (oc : Bool) (cfg : CouplerConfig) (j : Nat) (len : ProcessDataLength)
    (oi oo : Word) (s : LatePlant) (h : s.Started cfg j len oi oo) (evs : List LatePlantEv)
    (hu : LatePlant.OnlyUndecodable oc cfg evs) (hc : (s.run oc j len oi oo evs).cycles < 2) :
    let r := s.run oc j len oi oo evs
    r.delivered ++ r.buffered j = [] := by
  obtain ⟨t, ht, hsim, -⟩ := h.lsim (oc := oc)
  obtain ⟨evs', hs⟩ := hsim.run evs hu
  rw [← hs.cycles] at hc
  have h1 := C133_early len t ht evs' hc
  intro r
  rw [← h1, hs.delivered]
  simp only [LatePlant.buffered, r, hs.proc]

/-- C133 for a whole coupler, receiving: when no image is on the way, one round is enough to have received
everything the device has presented. -/
theorem C133_coupler_read (oc : Bool) (cfg : CouplerConfig) (j : Nat) (len : ProcessDataLength)
    (oi oo : Word) (s : LatePlant) (h : s.Started cfg j len oi oo) (evs : List LatePlantEv)
    (hu : LatePlant.OnlyUndecodable oc cfg evs) (hc : 2 ≤ (s.run oc j len oi oo evs).cycles)
    (hi : (s.run oc j len oi oo evs).ins = []) (ho : (s.run oc j len oi oo evs).outs = [])
    (pi : List Word) (hg : LatePlant.GoodRounds oc j len oi oo (s.run oc j len oi oo evs) [pi]) :
    let r := (s.run oc j len oi oo evs).rounds oc j len oi oo [pi]
    ∃ skipped got, r.shown = skipped ++ got ∧ skipped.length ≤ r.early ∧
      r.delivered ++ r.buffered j = got.flatten := by
  intro r
  obtain ⟨t, ht, hsim, -⟩ := h.lsim (oc := oc)
  obtain ⟨evs', hs⟩ := hsim.run evs hu
  obtain ⟨fl, hx, -, -⟩ := LatePlant_round hs hi ho hg.1 hg.2.1
  have hti : (t.run evs').ins = [] := by
    have := hs.ins
    rw [hi] at this
    exact List.map_eq_nil_iff.1 this.symm
  rw [← hs.cycles] at hc
  obtain ⟨a, b, h1, h2, h3⟩ := C133_read len t ht evs' hc hti fl.1 fl.2
  have hrest : ∀ x : Late, (x.run [.deliver, .take]).shown = x.shown ∧
      (x.run [.deliver, .take]).early = x.early ∧ (x.run [.deliver, .take]).delivered = x.delivered ∧
      (x.run [.deliver, .take]).p = x.p := by
    intro x
    simp only [Late.run, List.foldl_cons, List.foldl_nil, Late.step]
    repeat' split
    all_goals exact ⟨rfl, rfl, rfl, rfl⟩
  obtain ⟨r1, r2, r3, r4⟩ := hrest ((t.run evs').run [.sample fl.1 fl.2, .arrive, .cycle])
  have hround : ((t.run evs').run [.sample fl.1 fl.2, .arrive, .cycle]).run [.deliver, .take] =
      (t.run evs').run (Late.round fl) := rfl
  rw [hround] at r1 r2 r3 r4
  refine ⟨a, b, ?_, ?_, ?_⟩
  · rw [← h1, ← r1]
    exact hx.shown.symm
  · rw [← hx.early, r2]
    exact h2
  · rw [← h3, ← r3, ← r4, hx.delivered]
    simp only [LatePlant.buffered, r, hx.proc]

/-- C133 for a whole coupler, progress: also after a restart, when nothing is on the way any more, a
number of rounds bounded by the queue brings everything written to the device. -/
theorem C133_coupler_progress (oc : Bool) (cfg : CouplerConfig) (j : Nat) (len : ProcessDataLength)
    (oi oo : Word) (s : LatePlant) (h : s.Started cfg j len oi oo) (evs : List LatePlantEv)
    (hu : LatePlant.OnlyUndecodable oc cfg evs)
    (hi : (s.run oc j len oi oo evs).ins = []) (ho : (s.run oc j len oi oo evs).outs = [])
    (pis : List (List Word))
    (hg : LatePlant.GoodRounds oc j len oi oo (s.run oc j len oi oo evs) pis)
    (hk : ∀ p, (s.run oc j len oi oo evs).c.processors j = some p → 3 + p.outData.length ≤ pis.length) :
    (∃ old, (old = [] ∨ old = s.waiting len oo) ∧
      ((s.run oc j len oi oo evs).rounds oc j len oi oo pis).received =
        old ++ (s.run oc j len oi oo evs).written) ∧
    ((s.run oc j len oi oo evs).rounds oc j len oi oo pis).queued j = [] := by
  obtain ⟨t, ht, hsim, hw⟩ := h.lsim (oc := oc)
  obtain ⟨evs', hs⟩ := hsim.run evs hu
  obtain ⟨flags, hl, hx⟩ := LatePlant_rounds hs hi ho hg
  have hti : (t.run evs').ins = [] := by
    have := hs.ins
    rw [hi] at this
    exact List.map_eq_nil_iff.1 this.symm
  have hto : (t.run evs').outs = [] := by
    have := hs.outs
    rw [ho] at this
    exact List.map_eq_nil_iff.1 this.symm
  obtain ⟨⟨old, p0, p1⟩, p2⟩ := C133_progress len t ht evs' hti hto flags (by rw [hl]; exact hk _ hs.proc)
  rw [hw] at p0
  refine ⟨⟨old, p0, by rw [← hx.received, p1, hs.written]⟩, ?_⟩
  simp only [LatePlant.queued, hx.proc, p2, List.flatten_nil]

/-- C133 for a whole coupler, restarts: with any number of restarts, nothing that was written in any run
of the application is taken over twice or out of order. -/
theorem C133_coupler_restarts (oc : Bool) (cfg : CouplerConfig) (j : Nat) (len : ProcessDataLength)
    (oi oo : Word) (s : LatePlant) (h : s.Started cfg j len oi oo)
    (runs : List (List LatePlantEv × List Word))
    (hg : LatePlant.GoodSessions oc cfg j len oi oo s.c s runs) :
    ((LatePlant.sessions oc j len oi oo s.c s runs).map (·.2)).flatten <+
      s.waiting len oo ++ ((LatePlant.sessions oc j len oi oo s.c s runs).map (·.1)).flatten := by
  generalize hc : s.c = c at hg
  induction runs generalizing s with
  | nil => exact List.nil_sublist _
  | cons x runs ih =>
    obtain ⟨evs, pi⟩ := x
    obtain ⟨hu, hf, hg⟩ := hg
    obtain ⟨t, ht, hsim, hw⟩ := h.lsim (oc := oc)
    obtain ⟨evs', hs⟩ := hsim.run evs hu
    obtain ⟨old, o1, o2⟩ := late_waiting ht evs'
    have hR := h.restart hu hf
    rw [hc] at hR
    have hr := ih _ hR rfl hg
    have hwr : LatePlant.waiting ((s.run oc j len oi oo evs).restart c pi) len oo = (t.run evs').waiting :=
      hs.waiting
    rw [hwr] at hr
    rw [hs.received, hs.written] at o2
    simp only [LatePlant.sessions, List.map_cons, List.flatten_cons]
    refine ((List.Sublist.refl _).append hr).trans ?_
    rw [← List.append_assoc, ← List.append_assoc, ← hw]
    refine List.Sublist.append (o2.sublist.trans ?_) (List.Sublist.refl _)
    rcases o1 with rfl | rfl
    · exact List.sublist_append_right _ _
    · exact List.Sublist.refl _

/-- The example of C129 after a run that left a segment of two bytes in the image. -/
def exLateRestart : Late :=
  { exLate with kept := ⟨false, false, false, 3, 1, false, [8#8, 9#8]⟩
                out := ⟨false, false, false, 3, 1, false, [8#8, 9#8]⟩ }

theorem exLateRestart_started : exLateRestart.Started .EightBytes :=
  ⟨rfl, rfl, ⟨false, true, rfl⟩, rfl, rfl, by decide, by decide, rfl, by decide⟩

/-- The device takes over the segment that was waiting, then what is written. -/
example :
    let t := exLateRestart.run [.write [1#8], .take, .cycle, .cycle, .sample false true, .arrive, .cycle,
      .deliver, .deliver, .deliver, .take]
    exLateRestart.waiting = [8#8, 9#8] ∧ t.received = [8#8, 9#8, 1#8] ∧ t.written = [1#8] := by decide

/-- If the image of the first cycle arrives before the device has looked, the segment that was waiting is
gone; nothing else is. -/
example :
    let t := exLateRestart.run [.write [1#8], .cycle, .deliver, .take, .cycle, .sample false true, .arrive,
      .cycle, .deliver, .deliver, .take]
    t.received = [1#8] := by decide

/-- What the device presented while an image was lost has arrived after one more image. -/
example := C133_read .EightBytes exLateRestart exLateRestart_started
  [.cycle, .cycle, .post [5#8], .sample false true, .loseIn 0] (by decide) (by decide) false true

/-- Three runs. The first ends when its segment is on the way, which is lost; the second ends when the
device has its segment but has not taken it over; it does so in the third. -/
example :
    Late.sessions .EightBytes exLate
      [([.write [1#8], .take, .cycle, .cycle, .sample false true, .arrive, .cycle], (false, true)),
       ([.write [2#8, 3#8], .cycle, .cycle, .cycle, .deliver, .deliver, .deliver], (false, true)),
       ([.write [4#8], .take, .cycle, .cycle, .sample false true, .arrive, .cycle, .deliver, .deliver,
         .deliver, .take], (false, true))] =
      [([1#8], []), ([2#8, 3#8], []), ([4#8], [2#8, 3#8, 4#8])] := by decide

theorem exLatePlant_started : exLatePlant.Started exCfg 3 .EightBytes 0x0010#16 0x8010#16 :=
  have h := exLatePlant_initial
  ⟨h.c, h.serial, h.disjoint, h.kept, h.out.imp fun _ h => h.1, h.inp, h.ins, h.outs, h.ack, h.rxCnt,
    h.shown, h.logs⟩

/-- A whole coupler that is restarted when the device has not taken over the segment it has. -/
example :
    let runs : List (List LatePlantEv × List Word) :=
      [([.write [1#8, 2#8], .cycle, .cycle, .cycle, .deliver, .deliver, .deliver], exPi),
       ([.write [3#8], .take, .sample (exPi.set 1 0x0020#16), .arrive, .cycle, .cycle, .cycle, .deliver,
         .deliver, .deliver, .take], exPi.set 1 0x0040#16)]
    LatePlant.GoodSessions true exCfg 3 .EightBytes 0x0010#16 0x8010#16 exLatePlant.c exLatePlant runs ∧
      LatePlant.sessions true 3 .EightBytes 0x0010#16 0x8010#16 exLatePlant.c exLatePlant runs =
        [([1#8, 2#8], []), ([3#8], [1#8, 2#8, 3#8])] := by
  refine ⟨⟨?_, ⟨_, rfl, by decide +kernel⟩, ?_, ⟨_, rfl, by decide +kernel⟩, trivial⟩, by decide +kernel⟩
  · intro pi po h
    simp at h
  · intro pi po h
    simp at h

end Ur20
