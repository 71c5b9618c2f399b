import Verif.Props.LateFailNet
import Verif.Spec.LateFailRestart

/-!
# C154: failing cycles and restarts of the application with late and lost images
-/

namespace Ur20

open Com Spec Coupler
open scoped List

namespace Spec.Late

theorem Twin.fstep {d : List Byte} {n a : Nat} {s t : Late} (h : Twin d n a s t) (e : LateFailEv) :
    Twin d n a (s.fstep e) (t.fstep e) ∧ s.failLoses e = t.failLoses e := by
  cases e with
  | ev e => exact ⟨h.step e, rfl⟩
  | fail =>
    obtain ⟨olds, news, i1, i2, i3, i4, i5⟩ := h.images
    have hn : (s.p.next s.inp s.kept).1 = (t.p.next t.inp t.kept).1 ∧ s.kept.txCnt = t.kept.txCnt := by
      rw [h.p, h.inp]
      rcases i4 with hk | ⟨-, hk, -, -⟩
      · rw [hk]
        exact ⟨rfl, rfl⟩
      · rw [hk]
        exact ⟨(next_data t.p t.inp t.kept d).1, rfl⟩
    constructor
    · simp only [Late.fstep]
      exact ⟨hn.1, h.inp, h.ins, h.ack, h.rxCnt, h.avail, by simp only [h.cycles], h.written, h.shown,
        by simp only [h.cycles, h.shown, h.early], h.delivered, ⟨olds, news, i1, i2, i3, i4, i5⟩,
        h.received⟩
    · simp only [failLoses, hn.2, h.inp, h.p, h.cycles]

theorem Twin.frun {d : List Byte} {n a : Nat} {s t : Late} (h : Twin d n a s t)
    (evs : List LateFailEv) :
    Twin d n a (s.frun evs) (t.frun evs) ∧ s.failLost evs = t.failLost evs := by
  induction evs generalizing s t with
  | nil => exact ⟨h, rfl⟩
  | cons e evs ih =>
    obtain ⟨h1, h2⟩ := h.fstep e
    obtain ⟨h3, h4⟩ := ih h1
    exact ⟨h3, by simp only [failLost, h2, h4]⟩

theorem pieces_sublist (l : Pieces) : l.kept <+ l.all := by
  induction l with
  | nil => exact List.nil_sublist _
  | cons x l ih =>
    obtain ⟨b, k⟩ := x
    simp only [Pieces.kept, Pieces.all] at ih ⊢
    cases k
    · simpa using ih.trans (List.sublist_append_right _ _)
    · simpa using ih

/-- What the device has taken over and the segment waiting in its image. -/
theorem fail_waiting {len : ProcessDataLength} {s : Late} (h : s.Started len) (evs : List LateFailEv) :
    ∃ old, (old = [] ∨ old = s.waiting) ∧
      (s.frun evs).received ++ (s.frun evs).waiting <+ old ++ (s.frun evs).written := by
  have hv := (FTx.initial h.cleared).frun evs
  obtain ⟨hT, -⟩ := h.twin.frun evs
  obtain ⟨old, hold, hw⟩ := hT.waits hv.tx
  refine ⟨old, hold, hw.sublist.trans ?_⟩
  obtain ⟨l, l1, l2, -⟩ := hv.pieces
  rw [hT.written, ← l1, ← l2]
  exact (List.Sublist.refl old).append ((pieces_sublist l).trans (List.sublist_append_left _ _))

/-- A restart leads to a state in which an application starts. -/
theorem Started.frestart {len : ProcessDataLength} {s : Late} (h : s.Started len)
    (evs : List LateFailEv) (flags : Bool × Bool) : ((s.frun evs).restart len flags).Started len where
  p := rfl
  kept := rfl
  inp := ⟨flags.1, flags.2, by simp [Late.restart, Late.input]⟩
  ins := rfl
  outs := rfl
  ack := by
    show (s.frun evs).ack < 4
    rw [(h.twin.frun evs).1.ack]
    exact ((FTx.initial h.cleared).frun evs).tx.ack
  rxCnt := by
    show (s.frun evs).rxCnt < 4
    rw [(h.twin.frun evs).1.rxCnt]
    exact ((LRx.initial h.cleared).frun evs).cnt
  shown := rfl
  logs := ⟨rfl, rfl, rfl, rfl⟩

end Spec.Late

/-- C154, sending: whatever the image of the device carries when the application starts, whatever cycles
fail, however late the images are and whichever get lost: what was written divides into pieces in the
order of writing. Those that are kept are what the device has taken over, what is in flight and what is
queued; those that are not kept are the segments the failing cycles lose. Only the segment that was
waiting at the start can come before them, once and completely. -/
theorem C154_sent (len : ProcessDataLength) (s : Late) (h : s.Started len) (evs : List LateFailEv) :
    let r := s.frun evs
    ∃ old, (old = [] ∨ old = s.waiting) ∧ ∃ l : Pieces, l.all = r.written ∧
      old ++ l.kept = r.received ++ r.inFlight ++ r.p.outData.flatten ∧ l.gone = s.failLost evs := by
  intro r
  obtain ⟨hT, hl⟩ := h.twin.frun evs
  obtain ⟨old, hold, hb⟩ := hT.sent ((Late.FTx.initial h.cleared).frun evs).tx
  obtain ⟨l, l1, l2, l3⟩ := C152_sent len _ h.cleared evs
  refine ⟨old, hold, l, l1.trans hT.written.symm, ?_, by rw [l3, hl]⟩
  rw [l2, hb, hT.p]
  simp only [List.append_assoc]

/-- C154: each lost segment has at least one byte and fits into a frame, and there are not more of them
than failing cycles. -/
theorem C154_bound (len : ProcessDataLength) (s : Late) (h : s.Started len) (evs : List LateFailEv) :
    (s.failLost evs).length ≤ LateFailEv.fails evs ∧
    ∀ seg ∈ s.failLost evs, 1 ≤ seg.length ∧ seg.length ≤ capacity len := by
  rw [(h.twin.frun evs).2]
  exact C152_bound len _ h.cleared evs

/-- C154, receiving: failing cycles lose and double nothing of what the device sends. -/
theorem C154_received (len : ProcessDataLength) (s : Late) (h : s.Started len) (evs : List LateFailEv)
    (hc : 2 ≤ (s.frun evs).cycles) :
    ∃ skipped got ahead, (s.frun evs).shown = skipped ++ got ++ ahead ∧
      skipped.length ≤ (s.frun evs).early ∧ ahead.length ≤ 1 ∧
      (s.frun evs).delivered ++ (s.frun evs).p.inData = got.flatten := by
  have hT := (h.twin.frun evs).1
  rw [hT.shown, hT.early, hT.delivered, hT.p]
  exact C152_received len _ h.cleared evs (by rw [← hT.cycles]; exact hc)

/-- C154, receiving: before the end of the initialisation nothing is received. -/
theorem C154_early (len : ProcessDataLength) (s : Late) (h : s.Started len) (evs : List LateFailEv)
    (hc : (s.frun evs).cycles < 2) : (s.frun evs).delivered ++ (s.frun evs).p.inData = [] := by
  have hT := (h.twin.frun evs).1
  rw [hT.delivered, hT.p]
  exact C152_early len _ h.cleared evs (by rw [← hT.cycles]; exact hc)

/-- C154, receiving: after any failing cycles one image of the inputs and one cycle are enough for the
application to have everything the device has presented since the end of the initialisation. -/
theorem C154_read (len : ProcessDataLength) (s : Late) (h : s.Started len) (evs : List LateFailEv)
    (hc : 2 ≤ (s.frun evs).cycles) (hi : (s.frun evs).ins = []) (nearlyFull ready : Bool) :
    let r := (s.frun evs).run [.sample nearlyFull ready, .arrive, .cycle]
    ∃ skipped got, r.shown = skipped ++ got ∧ skipped.length ≤ r.early ∧
      r.delivered ++ r.p.inData = got.flatten := by
  intro r
  have hT := (h.twin.frun evs).1
  have hT' := hT.run [.sample nearlyFull ready, .arrive, .cycle]
  rw [show r.shown = _ from hT'.shown, show r.early = _ from hT'.early,
    show r.delivered = _ from hT'.delivered, show r.p = _ from hT'.p]
  exact C152_read len _ h.cleared evs (by rw [← hT.cycles]; exact hc) (by rw [← hT.ins]; exact hi)
    nearlyFull ready

/-- C154, progress: when the cycles succeed again and nothing is on the way, a number of rounds bounded by
the queue brings all that was written to the device, except for the segments lost before. -/
theorem C154_progress (len : ProcessDataLength) (s : Late) (h : s.Started len) (evs : List LateFailEv)
    (hi : (s.frun evs).ins = []) (ho : (s.frun evs).outs = []) (flags : List (Bool × Bool))
    (hk : 3 + (s.frun evs).p.outData.length ≤ flags.length) :
    (∃ old, (old = [] ∨ old = s.waiting) ∧ ∃ l : Pieces, l.all = (s.frun evs).written ∧
      old ++ l.kept = ((s.frun evs).rounds flags).received ∧ l.gone = s.failLost evs) ∧
    ((s.frun evs).rounds flags).p.outData = [] := by
  obtain ⟨hT, hl⟩ := h.twin.frun evs
  have hT' := hT.run (flags.flatMap Late.round)
  have hot : (s.cleared.frun evs).outs = [] := by
    obtain ⟨olds, news, i1, i2, -⟩ := hT.images
    have e1 := congrArg List.length i1
    have e2 := congrArg List.length i2
    rw [ho] at e1
    simp only [List.length_cons, List.length_append, List.length_map, List.length_nil] at e1 e2
    exact List.length_eq_zero_iff.1 (by omega)
  obtain ⟨⟨l, l1, l2, l3⟩, p2⟩ := C152_progress len _ h.cleared evs (by rw [← hT.ins]; exact hi) hot flags
    (by rw [← hT.p]; exact hk)
  obtain ⟨old, r1, r2⟩ := hT'.received
  refine ⟨⟨old, ?_, l, l1.trans hT.written.symm, ?_, l3.trans hl.symm⟩, ?_⟩
  · rcases r2 with r2 | ⟨r2, r3⟩
    · exact .inl r2
    · exact .inr (by rw [Late.waiting, if_pos r2, r3])
  · rw [Late.rounds, r1, l2, Late.rounds]
  · rw [Late.rounds, hT'.p]
    exact p2

/-- C154, restarts: with any number of restarts and failing cycles, nothing that was written in any run of
the application is taken over twice or out of order: what the device has taken over altogether are, in
order and each at most once, bytes of the segment waiting at the start and of what was written
altogether. -/
theorem C154_restarts (len : ProcessDataLength) (s : Late) (h : s.Started len)
    (runs : List (List LateFailEv × Bool × Bool)) :
    ((Late.fsessions len s runs).map (·.2)).flatten <+
      s.waiting ++ ((Late.fsessions len s runs).map (·.1)).flatten := by
  induction runs generalizing s with
  | nil => exact List.nil_sublist _
  | cons x runs ih =>
    obtain ⟨evs, flags⟩ := x
    obtain ⟨old, o1, o2⟩ := Late.fail_waiting h evs
    have hr := ih _ (h.frestart evs flags)
    have hw : ((s.frun evs).restart len flags).waiting = (s.frun evs).waiting := rfl
    rw [hw] at hr
    simp only [Late.fsessions, List.map_cons, List.flatten_cons]
    refine ((List.Sublist.refl _).append hr).trans ?_
    rw [← List.append_assoc, ← List.append_assoc]
    refine List.Sublist.append (o2.trans ?_) (List.Sublist.refl _)
    rcases o1 with rfl | rfl
    · exact List.sublist_append_right _ _
    · exact List.Sublist.refl _

namespace Spec.LatePlant

/-- A restart leads to a state in which an application starts. -/
theorem Started.frestart {oc : Bool} {cfg : CouplerConfig} {j : Nat} {len : ProcessDataLength}
    {oi oo : Word} {s : LatePlant} (h : s.Started cfg j len oi oo) {evs : List LatePlantFailEv}
    (hu : OnlyUndecodable oc cfg (LatePlantFailEv.others evs)) {pi : List Word}
    (hf : ∃ f, inFrame len oi pi = some f ∧ (s.frun oc cfg j len oi oo evs).Presents f) :
    ((s.frun oc cfg j len oi oo evs).restart s.c pi).Started cfg j len oi oo := by
  obtain ⟨t, ht, hsim, -⟩ := h.lsim (oc := oc)
  obtain ⟨evs', hs, -, -⟩ := hsim.frun evs hu
  have hR := ht.frestart evs' (false, false)
  obtain ⟨f, hf1, q1, q2, q3, q4⟩ := hf
  refine ⟨h.c, h.serial, h.disjoint, rfl, ⟨_, hs.out⟩, ⟨f, hf1, q1, q2, q3, q4⟩, rfl, rfl, ?_, ?_, rfl,
    ⟨rfl, rfl, rfl, rfl⟩⟩
  · have := hR.ack
    rw [show ((t.frun evs').restart len (false, false)).ack = (t.frun evs').ack from rfl, hs.ack] at this
    exact this
  · have := hR.rxCnt
    rw [show ((t.frun evs').restart len (false, false)).rxCnt = (t.frun evs').rxCnt from rfl,
      hs.rxCnt] at this
    exact this

end Spec.LatePlant

/-- C154 behind a coupler, sending: also when the image of the station carries a segment at the start,
which can come before all others, once and completely. -/
theorem C154_coupler_sent (oc : Bool) (cfg : CouplerConfig) (j : Nat) (len : ProcessDataLength)
    (oi oo : Word) (s : LatePlant) (h : s.Started cfg j len oi oo) (evs : List LatePlantFailEv)
    (hu : LatePlant.OnlyUndecodable oc cfg (LatePlantFailEv.others evs)) :
    let r := s.frun oc cfg j len oi oo evs
    let lost := s.failLost oc cfg j len oi oo evs
    (∃ old, (old = [] ∨ old = s.waiting len oo) ∧ ∃ l : Pieces, l.all = r.written ∧
      old ++ l.kept = r.received ++ r.inFlight len oo ++ r.queued j ∧ l.gone = lost) ∧
    (∀ seg ∈ lost, 1 ≤ seg.length ∧ seg.length ≤ capacity len) ∧
    lost.length ≤ LatePlantFailEv.fails evs := by
  obtain ⟨t, ht, hsim, hw⟩ := h.lsim (oc := oc)
  obtain ⟨evs', hs, hl, hf⟩ := hsim.frun evs hu
  obtain ⟨old, ho, l, l1, l2, l3⟩ := C154_sent len t ht evs'
  obtain ⟨b1, b2⟩ := C154_bound len t ht evs'
  rw [hl] at l3 b1 b2
  rw [hw] at ho
  refine ⟨⟨old, ho, l, by rw [l1, hs.written], ?_, l3⟩, b2, le_trans b1 hf⟩
  rw [l2, hs.received]
  simp only [LatePlant.inFlight, LatePlant.queued, Late.inFlight, hs.proc, hs.kept, hs.ack]

/-- C154 behind a coupler, receiving. -/
theorem C154_coupler_received (oc : Bool) (cfg : CouplerConfig) (j : Nat) (len : ProcessDataLength)
    (oi oo : Word) (s : LatePlant) (h : s.Started cfg j len oi oo) (evs : List LatePlantFailEv)
    (hu : LatePlant.OnlyUndecodable oc cfg (LatePlantFailEv.others evs))
    (hc : 2 ≤ (s.frun oc cfg j len oi oo evs).cycles) :
    let r := s.frun oc cfg j len oi oo evs
    ∃ skipped got ahead, r.shown = skipped ++ got ++ ahead ∧ skipped.length ≤ r.early ∧
      ahead.length ≤ 1 ∧ r.delivered ++ r.buffered j = got.flatten := by
  obtain ⟨t, ht, hsim, -⟩ := h.lsim (oc := oc)
  obtain ⟨evs', hs, -, -⟩ := hsim.frun evs hu
  rw [← hs.cycles] at hc
  obtain ⟨a, b, d, h1, h2, h3, h4⟩ := C154_received len t ht evs' hc
  intro r
  refine ⟨a, b, d, by rw [← h1, hs.shown], by rw [← hs.early]; exact h2, h3, ?_⟩
  rw [← h4, hs.delivered]
  simp only [LatePlant.buffered, r, hs.proc]

/-- C154 behind a coupler, receiving: before the end of the initialisation nothing is received. -/
theorem C154_coupler_early (oc : Bool) (cfg : CouplerConfig) (j : Nat) (len : ProcessDataLength)
    (oi oo : Word) (s : LatePlant) (h : s.Started cfg j len oi oo) (evs : List LatePlantFailEv)
    (hu : LatePlant.OnlyUndecodable oc cfg (LatePlantFailEv.others evs))
    (hc : (s.frun oc cfg j len oi oo evs).cycles < 2) :
    let r := s.frun oc cfg j len oi oo evs
    r.delivered ++ r.buffered j = [] := by
  obtain ⟨t, ht, hsim, -⟩ := h.lsim (oc := oc)
  obtain ⟨evs', hs, -, -⟩ := hsim.frun evs hu
  rw [← hs.cycles] at hc
  have h1 := C154_early len t ht evs' hc
  intro r
  rw [← h1, hs.delivered]
  simp only [LatePlant.buffered, r, hs.proc]

/-- C154 behind a coupler, progress. -/
theorem C154_coupler_progress (oc : Bool) (cfg : CouplerConfig) (j : Nat) (len : ProcessDataLength)
    (oi oo : Word) (s : LatePlant) (h : s.Started cfg j len oi oo) (evs : List LatePlantFailEv)
    (hu : LatePlant.OnlyUndecodable oc cfg (LatePlantFailEv.others evs))
    (hi : (s.frun oc cfg j len oi oo evs).ins = []) (ho : (s.frun oc cfg j len oi oo evs).outs = [])
    (pis : List (List Word))
    (hg : LatePlant.GoodRounds oc j len oi oo (s.frun oc cfg j len oi oo evs) pis)
    (hk : 3 + ((s.frun oc cfg j len oi oo evs).queue j).length ≤ pis.length) :
    let r := (s.frun oc cfg j len oi oo evs).rounds oc j len oi oo pis
    (∃ old, (old = [] ∨ old = s.waiting len oo) ∧ ∃ l : Pieces,
      l.all = (s.frun oc cfg j len oi oo evs).written ∧ old ++ l.kept = r.received ∧
      l.gone = s.failLost oc cfg j len oi oo evs) ∧
    r.queued j = [] := by
  obtain ⟨t, ht, hsim, hw⟩ := h.lsim (oc := oc)
  obtain ⟨evs', hs, hl, -⟩ := hsim.frun evs hu
  obtain ⟨flags, hlen, hx⟩ := LatePlant_rounds hs hi ho hg
  have hti : (t.frun evs').ins = [] := by
    have := hs.ins
    rw [hi] at this
    exact List.map_eq_nil_iff.1 this.symm
  have hto : (t.frun evs').outs = [] := by
    have := hs.outs
    rw [ho] at this
    exact List.map_eq_nil_iff.1 this.symm
  rw [LatePlant.queue, hs.proc] at hk
  obtain ⟨⟨old, po, l, l1, l2, l3⟩, p2⟩ := C154_progress len t ht evs' hti hto flags
    (by rw [hlen]; exact hk)
  rw [hw] at po
  refine ⟨⟨old, po, l, by rw [l1, hs.written], by rw [l2, hx.received], by rw [l3, hl]⟩, ?_⟩
  simp only [LatePlant.queued, hx.proc, p2, List.flatten_nil]

/-- C154 behind a coupler, restarts: with any number of restarts and failing cycles, nothing that was
written in any run of the application is taken over twice or out of order. -/
theorem C154_coupler_restarts (oc : Bool) (cfg : CouplerConfig) (j : Nat) (len : ProcessDataLength)
    (oi oo : Word) (s : LatePlant) (h : s.Started cfg j len oi oo)
    (runs : List (List LatePlantFailEv × List Word))
    (hg : LatePlant.GoodFailSessions oc cfg j len oi oo s.c s runs) :
    ((LatePlant.fsessions oc cfg j len oi oo s.c s runs).map (·.2)).flatten <+
      s.waiting len oo ++ ((LatePlant.fsessions oc cfg j len oi oo s.c s runs).map (·.1)).flatten := by
  generalize hc : s.c = c at hg
  induction runs generalizing s with
  | nil => exact List.nil_sublist _
  | cons x runs ih =>
    obtain ⟨evs, pi⟩ := x
    obtain ⟨hu, hf, hg⟩ := hg
    obtain ⟨t, ht, hsim, hw⟩ := h.lsim (oc := oc)
    obtain ⟨evs', hs, -, -⟩ := hsim.frun evs hu
    obtain ⟨old, o1, o2⟩ := Late.fail_waiting ht evs'
    have hR := h.frestart hu hf
    rw [hc] at hR
    have hr := ih _ hR rfl hg
    have hwr : LatePlant.waiting ((s.frun oc cfg j len oi oo evs).restart c pi) len oo =
      (t.frun evs').waiting := hs.waiting
    rw [hwr] at hr
    rw [hs.received, hs.written] at o2
    simp only [LatePlant.fsessions, List.map_cons, List.flatten_cons]
    refine ((List.Sublist.refl _).append hr).trans ?_
    rw [← List.append_assoc, ← List.append_assoc, ← hw]
    refine List.Sublist.append (o2.trans ?_) (List.Sublist.refl _)
    rcases o1 with rfl | rfl
    · exact List.sublist_append_right _ _
    · exact List.Sublist.refl _

/-- C154 for any number of devices, sending: what a device takes over of what was written to its module
are, in order, all bytes except exactly the segments that failing cycles lose, possibly after the segment
that was waiting for it at the start. -/
theorem C154_net_sent (oc : Bool) (cfg : CouplerConfig) (w : Wiring) (s : LateNet) (h : s.Started cfg w)
    (evs : List LateNetFailEv) (hu : LateNet.OnlyUndecodable oc cfg (LateNetFailEv.others evs))
    (j : Nat) (hj : j ∈ w.modules) :
    let r := s.frun oc cfg w evs
    let lost := s.failLost oc cfg w j evs
    (∃ old, (old = [] ∨ old = s.waiting w j) ∧ ∃ l : Pieces, l.all = (r.line j).written ∧
      old ++ l.kept = (r.line j).received ++ r.inFlight w j ++ r.queued j ∧ l.gone = lost) ∧
    (∀ seg ∈ lost, 1 ≤ seg.length ∧ seg.length ≤ capacity (w.wire j).len) ∧
    lost.length ≤ LateNetFailEv.fails evs := by
  obtain ⟨evs', h1, h2, h3, h4⟩ := LateNet.frun_at hj s evs hu
  have := C154_coupler_sent oc cfg j _ _ _ _ (LateNet.started_at h hj) evs' h4
  simp only at this ⊢
  rw [← h1, ← h2, h3] at this
  exact this

/-- C154 for any number of devices, receiving. -/
theorem C154_net_received (oc : Bool) (cfg : CouplerConfig) (w : Wiring) (s : LateNet)
    (h : s.Started cfg w) (evs : List LateNetFailEv)
    (hu : LateNet.OnlyUndecodable oc cfg (LateNetFailEv.others evs))
    (hc : 2 ≤ (s.frun oc cfg w evs).cycles) (j : Nat) (hj : j ∈ w.modules) :
    let r := s.frun oc cfg w evs
    ∃ skipped got ahead, (r.line j).shown = skipped ++ got ++ ahead ∧
      skipped.length ≤ (r.line j).early ∧ ahead.length ≤ 1 ∧
      (r.line j).delivered ++ r.buffered j = got.flatten := by
  obtain ⟨evs', h1, -, -, h4⟩ := LateNet.frun_at hj s evs hu
  have := C154_coupler_received oc cfg j _ _ _ _ (LateNet.started_at h hj) evs' h4
    (by rw [← h1]; exact hc)
  simp only at this ⊢
  rw [← h1] at this
  exact this

/-- C154 for any number of devices, receiving: before the end of the initialisation nothing is
received. -/
theorem C154_net_early (oc : Bool) (cfg : CouplerConfig) (w : Wiring) (s : LateNet)
    (h : s.Started cfg w) (evs : List LateNetFailEv)
    (hu : LateNet.OnlyUndecodable oc cfg (LateNetFailEv.others evs))
    (hc : (s.frun oc cfg w evs).cycles < 2) (j : Nat) (hj : j ∈ w.modules) :
    let r := s.frun oc cfg w evs
    (r.line j).delivered ++ r.buffered j = [] := by
  obtain ⟨evs', h1, -, -, h4⟩ := LateNet.frun_at hj s evs hu
  have := C154_coupler_early oc cfg j _ _ _ _ (LateNet.started_at h hj) evs' h4
    (by rw [← h1]; exact hc)
  simp only at this ⊢
  rw [← h1] at this
  exact this

/-- C154 for any number of devices, progress. -/
theorem C154_net_progress (oc : Bool) (cfg : CouplerConfig) (w : Wiring) (s : LateNet)
    (h : s.Started cfg w) (evs : List LateNetFailEv)
    (hu : LateNet.OnlyUndecodable oc cfg (LateNetFailEv.others evs))
    (hi : (s.frun oc cfg w evs).ins = []) (ho : (s.frun oc cfg w evs).outs = [])
    (pis : List (List Word)) (hg : (s.frun oc cfg w evs).GoodCycles oc w pis) (j : Nat)
    (hj : j ∈ w.modules) (hk : 3 + ((s.frun oc cfg w evs).queue j).length ≤ pis.length) :
    let r := (s.frun oc cfg w evs).rounds oc w pis
    (∃ old, (old = [] ∨ old = s.waiting w j) ∧ ∃ l : Pieces,
      l.all = ((s.frun oc cfg w evs).line j).written ∧ old ++ l.kept = (r.line j).received ∧
      l.gone = s.failLost oc cfg w j evs) ∧
    r.queued j = [] := by
  obtain ⟨evs', h1, h2, -, h4⟩ := LateNet.frun_at hj s evs hu
  obtain ⟨k1, k2⟩ := LateNet.cycles_at h.distinct hj _ pis hg
  rw [h1] at k1 k2
  have := C154_coupler_progress oc cfg j _ _ _ _ (LateNet.started_at h hj) evs' h4
    (by rw [← h1]; exact hi) (by rw [← h1]; exact ho) pis k1 (by rw [← h1]; exact hk)
  simp only at this ⊢
  rw [← k2, ← h1, ← h2] at this
  exact this

/-- C154 for any number of devices, restarts: over any number of restarts of the application and failing
cycles every device takes over bytes that were written to its own module, each at most once and in order,
possibly after the segment that was waiting for it at the start. -/
theorem C154_net_restarts (oc : Bool) (cfg : CouplerConfig) (w : Wiring) (s : LateNet)
    (h : s.Started cfg w) (runs : List (List LateNetFailEv × List Word))
    (hg : LateNet.GoodFailSessions oc cfg w s.c s runs) (j : Nat) (hj : j ∈ w.modules) :
    ((LateNet.fsessions oc cfg w s.c j s runs).map (·.2)).flatten <+
      s.waiting w j ++ ((LateNet.fsessions oc cfg w s.c j s runs).map (·.1)).flatten := by
  have key : ∀ (runs : List (List LateNetFailEv × List Word)) (s : LateNet) (c : Coupler),
      LateNet.GoodFailSessions oc cfg w c s runs → ∃ runs',
        LateNet.fsessions oc cfg w c j s runs =
          LatePlant.fsessions oc cfg j (w.wire j).len (w.wire j).oi (w.wire j).oo c (s.at_ j) runs' ∧
        LatePlant.GoodFailSessions oc cfg j (w.wire j).len (w.wire j).oi (w.wire j).oo c (s.at_ j)
          runs' := by
    intro runs
    induction runs with
    | nil => exact fun s c _ => ⟨[], rfl, trivial⟩
    | cons x runs ih =>
      obtain ⟨evs, pi⟩ := x
      intro s c ⟨g1, g2, g3⟩
      obtain ⟨evs', h1, -, -, h2⟩ := LateNet.frun_at hj s evs g1
      obtain ⟨runs', k1, k2⟩ := ih _ c g3
      rw [LateNet.restart_at, h1] at k1 k2
      have hs : (∃ f, inFrame (w.wire j).len (w.wire j).oi pi = some f ∧
          ((s.frun oc cfg w evs).at_ j).Presents f) := g2 j hj
      rw [h1] at hs
      refine ⟨(evs', pi) :: runs', ?_, h2, hs, k2⟩
      simp only [LateNet.fsessions, LatePlant.fsessions, k1, ← h1]
      rfl
  obtain ⟨runs', k1, k2⟩ := key runs s s.c hg
  rw [k1]
  exact C154_coupler_restarts oc cfg j _ _ _ (s.at_ j) (LateNet.started_at h hj) runs' k2

/-! ### Examples -/

/-- Both cycles of the initialisation fail: the segment of the previous run stays in the image, and the
device takes it over once. -/
example :
    let t := exLateRestart.frun [.fail, .fail, .ev (.write [1#8]), .ev .cycle, .ev .deliver, .ev .take,
      .ev (.sample false true), .ev .arrive, .fail, .ev (.write [2#8]), .ev .cycle, .ev .deliver,
      .ev .take]
    exLateRestart.waiting = [8#8, 9#8] ∧ t.received = [8#8, 9#8, 2#8] ∧ t.written = [1#8, 2#8] := by
  decide

example := C154_sent .EightBytes exLateRestart exLateRestart_started [.fail, .fail, .ev .cycle]

example := C154_bound .EightBytes exLateRestart exLateRestart_started exLateFails

example := C154_received .EightBytes exLateRestart exLateRestart_started exLateFails (by decide)

example := C154_early .EightBytes exLateRestart exLateRestart_started [.fail, .ev (.read 3)] (by decide)

example := C154_read .EightBytes exLateRestart exLateRestart_started exLateFails (by decide) (by decide)
  false true

example := C154_progress .EightBytes exLateRestart exLateRestart_started [.fail, .fail,
  .ev (.write [1#8])] (by decide) (by decide) (List.replicate 4 (false, true)) (by decide)

example := C154_restarts .EightBytes exLateRestart exLateRestart_started
  [([.fail, .fail, .ev (.write [1#8]), .ev .cycle], false, true), ([.ev .cycle, .fail], true, true)]

example := C154_coupler_sent true exCfg 3 .EightBytes 0x0010#16 0x8010#16 exLatePlant
  exLatePlant_started exLateAfter (fun pi po h => by
    simp [exLateAfter, exLateBefore, LatePlantFailEv.others] at h)

example := C154_coupler_received true exCfg 3 .EightBytes 0x0010#16 0x8010#16 exLatePlant
  exLatePlant_started exLateAfter (fun pi po h => by
    simp [exLateAfter, exLateBefore, LatePlantFailEv.others] at h)
  (by rw [exLateAfter_run.1]; decide +kernel)

example := C154_coupler_early true exCfg 3 .EightBytes 0x0010#16 0x8010#16 exLatePlant
  exLatePlant_started [.ev .cycle, .ev (.read 4)] (fun pi po h => by
    simp [LatePlantFailEv.others] at h)
  (by show (exLatePlant.run true 3 .EightBytes 0x0010#16 0x8010#16 [.cycle, .read 4]).cycles < 2
      decide +kernel)

example := C154_coupler_progress true exCfg 3 .EightBytes 0x0010#16 0x8010#16 exLatePlant
  exLatePlant_started exLateAfter (fun pi po h => by
    simp [exLateAfter, exLateBefore, LatePlantFailEv.others] at h)
  (by rw [exLateAfter_run.1]; decide +kernel) (by rw [exLateAfter_run.1]; decide +kernel)
  [exPi, exPi.set 1 0x0020#16, exPi.set 1 0x0020#16, exPi.set 1 0x0020#16]
  (by
    rw [exLateAfter_run.1]
    exact ⟨⟨_, rfl, by decide +kernel⟩, ⟨_, rfl⟩, ⟨_, rfl, by decide +kernel⟩, ⟨_, rfl⟩,
      ⟨_, rfl, by decide +kernel⟩, ⟨_, rfl⟩, ⟨_, rfl, by decide +kernel⟩, ⟨_, rfl⟩, trivial⟩)
  (by rw [exLateAfter_run.1]; decide +kernel)

example := C154_coupler_restarts true exCfg 3 .EightBytes 0x0010#16 0x8010#16 exLatePlant
  exLatePlant_started [(exLateAfter, exPi)]
  ⟨fun pi po h => by simp [exLateAfter, exLateBefore, LatePlantFailEv.others] at h,
    ⟨_, rfl, by rw [exLateAfter_run.1]; decide +kernel⟩, trivial⟩

/-! Two devices; the image carries a segment for the first one. The first cycle fails, so that this
segment stays in the image until the second one. -/

def exFailFirst : List LateNetFailEv :=
  [.ev (.other (.setOutput ⟨0, 0⟩ (.bytes []))), .ev (.write 1 [1#8]), .fail, .ev .again, .ev .deliver,
    .ev (.take 1), .ev .cycle]

theorem exFailFirst_good : LateNet.OnlyUndecodable true exDuo (LateNetFailEv.others exFailFirst) := by
  intro pi po h
  simp [exFailFirst, LateNetFailEv.others] at h

theorem exLateNet_decodable : Decodable exDuo (List.replicate 8 0#16) exLateNet.kept := by
  refine ⟨exDuo_decodable.1, ?_⟩
  intro j t par o i h hn
  rcases exDuo_at h with ⟨rfl, rfl, rfl, rfl, rfl⟩ | ⟨rfl, rfl, rfl, rfl, rfl⟩ |
    ⟨rfl, rfl, rfl, rfl, rfl⟩
  · exact ⟨by decide, by unfold HasRegisters; decide, fun h => by cases h⟩
  · refine ⟨by decide, by unfold HasRegisters; decide, fun _ b hb => ?_⟩
    rw [show byteAt _ _ = some 2#8 by decide] at hb
    cases hb; decide
  · refine ⟨by decide, by unfold HasRegisters; decide, fun _ b hb => ?_⟩
    rw [show byteAt _ _ = some 0#8 by decide] at hb
    cases hb; decide

theorem exFailFirst_run :
    let s := exLateNet.run true exWires [.other (.setOutput ⟨0, 0⟩ (.bytes [])), .write 1 [1#8]]
    exLateNet.frun true exDuo exWires exFailFirst = LateNet.run true exWires
      { s with
        c := (s.c.next true (List.replicate 8 0#16) exLateNet.kept).1, cycles := 1
        line := fun j => { s.line j with early := (s.line j).shown.length } }
      [.again, .deliver, .take 1, .cycle] ∧
    exLateNet.failLost true exDuo exWires 1 exFailFirst = [] := by
  have hn : ((exLateNet.run true exWires [.other (.setOutput ⟨0, 0⟩ (.bytes [])),
      .write 1 [1#8]]).c.next true (List.replicate 8 0#16) exLateNet.kept).2 = .err .channelValue := by
    decide +kernel
  have hi : (exLateNet.run true exWires [.other (.setOutput ⟨0, 0⟩ (.bytes [])),
      .write 1 [1#8]]).inp = List.replicate 8 0#16 := by decide +kernel
  have hk : (exLateNet.run true exWires [.other (.setOutput ⟨0, 0⟩ (.bytes [])),
      .write 1 [1#8]]).kept = exLateNet.kept := by decide +kernel
  have hc : (exLateNet.run true exWires [.other (.setOutput ⟨0, 0⟩ (.bytes [])),
      .write 1 [1#8]]).cycles = 0 := by decide +kernel
  have hd : Decodable exDuo (List.replicate 8 0#16) exLateNet.kept := exLateNet_decodable
  obtain ⟨h1, h2⟩ := net_frun_ev (oc := true) (cfg := exDuo) (w := exWires) 1 exLateNet
    [.other (.setOutput ⟨0, 0⟩ (.bytes [])), .write 1 [1#8]]
    (.fail :: List.map .ev [.again, .deliver, .take 1, .cycle])
  intro s
  rw [show exFailFirst = List.map .ev [.other (.setOutput ⟨0, 0⟩ (.bytes [])), .write 1 [1#8]] ++
    (.fail :: List.map .ev [.again, .deliver, .take 1, .cycle]) from rfl, h1, h2]
  change s.cycles = 0 at hc
  change s.inp = _ at hi
  change s.kept = _ at hk
  change (s.c.next _ _ _).2 = _ at hn
  change LateNet.frun true exDuo exWires s _ = _ ∧ LateNet.failLost true exDuo exWires 1 s _ = _
  generalize s = s at *
  constructor
  · rw [LateNet.frun, List.foldl_cons]
    have : s.fstep true exDuo exWires .fail =
      { s with
        c := (s.c.next true (List.replicate 8 0#16) exLateNet.kept).1, cycles := 1
        line := fun j => { s.line j with early := (s.line j).shown.length } } := by
      simp only [LateNet.fstep, hi, hk]
      split
      · rename_i c' e hn'
        rw [if_pos (by rw [hi, hk]; exact hd), hc, hn']
        simp only [Nat.zero_lt_succ, if_true]
      · rename_i hx
        exact absurd (show s.c.next true (List.replicate 8 0#16) exLateNet.kept =
          ((s.c.next true (List.replicate 8 0#16) exLateNet.kept).1, .err .channelValue)
          from Prod.ext rfl hn) (hx _ _)
    rw [this]
    rfl
  · rw [LateNet.failLost, LateNet.failLoses, if_neg (by omega)]
    rfl

example := C154_net_sent true exDuo exWires exLateNet exLateNet_started exFailFirst exFailFirst_good 1
  (by decide)

/-- The device has taken over the two bytes of the previous run, the byte written is queued. -/
example : ((exLateNet.frun true exDuo exWires exFailFirst).line 1).received = [8#8, 9#8] ∧
    (exLateNet.frun true exDuo exWires exFailFirst).queued 1 = [1#8] ∧
    (exLateNet.frun true exDuo exWires exFailFirst).cycles = 2 := by
  rw [exFailFirst_run.1]
  decide +kernel

example := C154_net_received true exDuo exWires exLateNet exLateNet_started exFailFirst exFailFirst_good
  (by rw [exFailFirst_run.1]; decide +kernel) 1 (by decide)

example := C154_net_early true exDuo exWires exLateNet exLateNet_started [.ev .cycle]
  (fun pi po h => by simp [LateNetFailEv.others] at h)
  (by show (exLateNet.run true exWires [.cycle]).cycles < 2
      decide +kernel) 2 (by decide)

example := C154_net_progress true exDuo exWires exFailNet exFailNet_initial.started exFailEvs
  exFailEvs_good (by rw [exFailEvs_run.1]; decide +kernel) (by rw [exFailEvs_run.1]; decide +kernel)
  exFailInputs
  (by
    rw [exFailEvs_run.1]
    exact ⟨by decide +kernel, ⟨_, rfl⟩, by decide +kernel, ⟨_, rfl⟩, by decide +kernel, ⟨_, rfl⟩,
      by decide +kernel, ⟨_, rfl⟩, trivial⟩)
  2 (by decide) (by rw [exFailEvs_run.1]; decide +kernel)

example := C154_net_restarts true exDuo exWires exLateNet exLateNet_started
  [(exFailFirst, [0x0020#16, 0#16, 0#16, 0#16, 0#16, 0#16, 0#16, 0#16])]
  ⟨exFailFirst_good, by rw [exFailFirst_run.1]; decide +kernel, trivial⟩ 1 (by decide)

end Ur20
