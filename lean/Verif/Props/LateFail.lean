import Verif.Props.LatePlant
import Verif.Props.Lost
import Verif.Spec.LateFail

/-!
# C152: serial data with failing cycles and late and lost images
-/

namespace Ur20

open Com Spec Coupler

namespace Spec.Late

/-- The bytes that are not lost. -/
def rest (s : Late) : List Byte := s.received ++ s.inFlight ++ s.lqueued

/-- What holds of the transmit direction when cycles fail: as without, if the lost bytes are not
counted as written. -/
structure FTx (len : ProcessDataLength) (lost : List (List Byte)) (s : Late) : Prop where
  tx : ({ s with written := s.rest } : Late).LTx
  queue : QueueOk len s.p
  pieces : ∃ l : Pieces, l.all ++ s.lqueued = s.written ∧ l.kept = s.received ++ s.inFlight ∧
    l.gone = lost

theorem FTx.initial {len : ProcessDataLength} {s : Late} (h : s.Initial len) : s.FTx len [] := by
  have h0 := LTx.initial h
  have hb : s.rest = s.written := h0.bytes
  refine ⟨by rw [hb]; exact h0, by rw [h.p]; exact QueueOk.new len, [], ?_⟩
  have hw : s.written = [] := h.logs.2.1
  have hr : s.received = [] := h.logs.2.2.1
  rw [hw] at hb ⊢
  simp only [rest, List.append_eq_nil_iff] at hb
  simp [hb, Pieces.all, Pieces.kept, Pieces.gone]

/-- What a step writes. -/
def wrote : LateEv → List Byte
  | .write b => b
  | _ => []

/-- The records do not matter for the steps. -/
theorem step_log (s : Late) (w : List Byte) (e : LateEv) :
    ({ s with written := w } : Late).step e =
      { s.step e with written := w ++ wrote e } := by
  cases e <;> simp only [Late.step, List.append_nil, Late.input, wrote] <;> (repeat' split) <;> rfl

/-- A step moves bytes at most from the queue to the end of what was sent. -/
theorem step_sent {s : Late} (h : s.LTx) (e : LateEv) :
    ∃ m, (s.step e).received ++ (s.step e).inFlight = s.received ++ s.inFlight ++ m := by
  cases e with
  | cycle =>
    rcases late_next s.p s.inp s.kept (h.inpAck List.mem_cons_self) h.data with
      ⟨e1, e2, -, -⟩ | ⟨-, e1, e2, -, e4⟩
    · exact ⟨[], by simp only [Late.step, inFlight, e1, e2, List.append_nil]⟩
    · refine ⟨(s.step .cycle).inFlight, ?_⟩
      have : s.inFlight = [] := by
        rcases h.acks with ⟨a, b⟩ | ⟨a, -⟩
        · exact absurd a (by rw [b _ List.mem_cons_self] at e1; exact e1)
        · rw [inFlight, if_neg a]
      rw [this, List.append_nil]
      rfl
  | take =>
    refine ⟨[], ?_⟩
    simp only [Late.step, List.append_nil]
    split
    · rename_i ht
      have hA := h.ack
      rcases h.acks with ⟨a, b⟩ | ⟨a, b, -, -⟩
      · simp only [inFlight]
        rw [if_neg (by omega), if_pos a, h.same _ List.mem_cons_self (by rw [ht, a]), List.append_nil]
      · exact absurd ht (by rw [b _ List.mem_cons_self]; exact a)
    · rfl
  | read n => exact ⟨[], by simp only [Late.step, read_ok, List.append_nil]; rfl⟩
  | _ => exact ⟨[], by simp only [Late.step, List.append_nil]; (repeat' split) <;> rfl⟩

theorem step_queue {len : ProcessDataLength} {s : Late} (h : QueueOk len s.p) (e : LateEv) :
    QueueOk len (s.step e).p := by
  cases e with
  | write b => exact h.write b
  | read n =>
    simp only [Late.step, read_ok]
    exact ⟨h.1, h.2⟩
  | cycle => exact h.next _ _
  | _ => simp only [Late.step]; (repeat' split) <;> exact h

theorem pieces_append (a b : Pieces) : Pieces.all (a ++ b) = a.all ++ b.all ∧
    Pieces.kept (a ++ b) = a.kept ++ b.kept ∧ Pieces.gone (a ++ b) = a.gone ++ b.gone := by
  simp [Pieces.all, Pieces.kept, Pieces.gone]

theorem pieces_lost (l : List (List Byte)) : Pieces.all (l.map (·, false)) = l.flatten ∧
    Pieces.kept (l.map (·, false)) = [] ∧ Pieces.gone (l.map (·, false)) = l := by
  induction l with
  | nil => exact ⟨rfl, rfl, rfl⟩
  | cons a l ih =>
    obtain ⟨h1, h2, h3⟩ := ih
    simp only [Pieces.all, Pieces.kept, Pieces.gone] at h1 h2 h3
    simp [Pieces.all, Pieces.kept, Pieces.gone] at h1 h2 h3 ⊢
    exact ⟨h1, h3⟩

theorem FTx.step {len : ProcessDataLength} {lost : List (List Byte)} {s : Late} (h : s.FTx len lost)
    (e : LateEv) : (s.step e).FTx len lost := by
  have h1 := h.tx.step e
  obtain ⟨m, hm⟩ := step_sent h.tx e
  have hb := h1.bytes
  rw [step_log] at h1 hm hb
  have hm' : (s.step e).received ++ (s.step e).inFlight = s.received ++ s.inFlight ++ m := hm
  have hb' : (s.step e).rest = s.rest ++ wrote e := hb
  obtain ⟨l, l1, l2, l3⟩ := h.pieces
  have hw : (s.step e).written = s.written ++ wrote e := by
    have := congrArg Late.written (step_log s s.written e)
    exact this
  have hq : m ++ (s.step e).lqueued = s.lqueued ++ wrote e := by
    simp only [rest] at hb'
    rw [hm', List.append_assoc, List.append_assoc (s.received ++ s.inFlight)] at hb'
    exact List.append_cancel_left hb'
  refine ⟨by rw [hb']; exact h1, step_queue h.queue e, l ++ [(m, true)], ?_, ?_, ?_⟩
  · rw [(pieces_append _ _).1, hw, ← l1, List.append_assoc, List.append_assoc, ← hq]
    simp [Pieces.all]
  · rw [(pieces_append _ _).2.1, l2, hm']
    simp [Pieces.kept]
  · rw [(pieces_append _ _).2.2, l3]
    simp [Pieces.gone]

/-- What a failing cycle takes from the queue. -/
theorem fail_takes {s : Late} (hi : s.p.initState = initStateOf s.cycles)
    (ha : s.inp.txCntAck < 4) :
    s.p.outData = s.failLoses .fail ++ (s.fstep .fail).p.outData := by
  simp only [failLoses, fstep]
  by_cases hc : 2 ≤ s.cycles
  · have hd : s.p.initState = .done := by rw [hi, initStateOf_done]; exact hc
    have h1 : (s.p.next s.inp s.kept).1.outData = (s.p.nextTx s.inp s.kept).1.outData := by
      rw [next_done _ _ _ hd, (nextRx_frame _ _).1]
    rw [h1]
    by_cases hb : s.kept.txCnt = (s.inp.txCntAck + 1) % 4
    · rw [if_neg (by omega), nextTx_busy _ _ _ (by rw [incCnt_eq _ ha, hb])]
      rfl
    · rw [if_pos ⟨hc, hb⟩]
      cases hq : s.p.outData with
      | nil => rw [nextTx_nil _ _ _ hq, hq]; rfl
      | cons c cs =>
        rw [nextTx_send _ _ _ c cs hq (by rw [incCnt_eq _ ha]; exact fun h => hb h.symm)]
        rfl
  · rw [if_neg (by omega)]
    match hcy : s.cycles, hc with
    | 0, _ => rw [hcy] at hi; rw [next_clear _ _ _ hi]; rfl
    | 1, _ => rw [hcy] at hi; rw [next_reset _ _ _ hi]; rfl
    | n + 2, hc => omega

theorem FTx.fail {len : ProcessDataLength} {lost : List (List Byte)} {s : Late} (h : s.FTx len lost) :
    (s.fstep .fail).FTx len (lost ++ s.failLoses .fail) := by
  have hq := fail_takes (s := s) h.tx.init (h.tx.inpAck List.mem_cons_self)
  obtain ⟨l, l1, l2, l3⟩ := h.pieces
  refine ⟨⟨next_initState _ _ _ _ h.tx.init, h.tx.ack, fun hd => ?_, rfl, h.tx.same, h.tx.order,
    h.tx.acks⟩, h.queue.next _ _, l ++ (s.failLoses .fail).map (·, false), ?_, ?_, ?_⟩
  · refine h.tx.data fun hx => hd ?_
    show ((s.p.next s.inp s.kept).1).initState = .done
    have hx : s.p.initState = .done := hx
    rw [next_done _ _ _ hx, (nextRx_frame _ _).2.1, (nextTx_frame _ _ _).2.2.1, hx]
  · rw [(pieces_append _ _).1, (pieces_lost _).1, List.append_assoc]
    show _ = s.written
    rw [← l1, lqueued, lqueued, ← List.flatten_append, ← hq]
  · rw [(pieces_append _ _).2.1, (pieces_lost _).2.1, l2, List.append_nil]
    rfl
  · rw [(pieces_append _ _).2.2, (pieces_lost _).2.2, l3]

theorem FTx.fstep {len : ProcessDataLength} {lost : List (List Byte)} {s : Late} (h : s.FTx len lost)
    (e : LateFailEv) : (s.fstep e).FTx len (lost ++ s.failLoses e) := by
  cases e with
  | ev e => simp only [failLoses, List.append_nil]; exact h.step e
  | fail => exact h.fail

theorem FTx.frun {len : ProcessDataLength} {lost : List (List Byte)} {s : Late} (h : s.FTx len lost)
    (evs : List LateFailEv) : (s.frun evs).FTx len (lost ++ s.failLost evs) := by
  induction evs generalizing s lost with
  | nil => simpa [failLost, Late.frun] using h
  | cons e evs ih =>
    have := ih (h.fstep e)
    rwa [List.append_assoc] at this

theorem FTx.lost {len : ProcessDataLength} {lost : List (List Byte)} {s : Late} (h : s.FTx len lost)
    (evs : List LateFailEv) : (s.failLost evs).length ≤ LateFailEv.fails evs ∧
      ∀ seg ∈ s.failLost evs, 1 ≤ seg.length ∧ seg.length ≤ len.userDataLen := by
  induction evs generalizing s lost with
  | nil => exact ⟨Nat.le_refl _, fun seg hs => by cases hs⟩
  | cons e evs ih =>
    obtain ⟨i1, i2⟩ := ih (h.fstep e)
    cases e with
    | ev e =>
      simp only [failLost, failLoses, LateFailEv.fails, List.nil_append]
      exact ⟨i1, i2⟩
    | fail =>
      have hl : (s.failLoses .fail).length ≤ 1 ∧ ∀ seg ∈ s.failLoses .fail, seg ∈ s.p.outData := by
        simp only [failLoses]
        split
        · exact ⟨by simp, fun seg hs => List.mem_of_mem_take hs⟩
        · simp
      simp only [failLost, LateFailEv.fails, List.length_append]
      refine ⟨by omega, fun seg hs => ?_⟩
      rcases List.mem_append.1 hs with hs | hs
      · exact h.queue.2 seg (hl.2 seg hs)
      · exact i2 seg hs

/-- A failing cycle as seen by the receive direction. -/
theorem LRx.fail {s : Late} (h : s.LRx) : (s.fstep .fail).LRx := by
  have hc := (h.step .cycle)
  have hcur : s.inp.rxCnt = s.rxCnt → ∀ a ∈ s.inp :: s.ins, a.rxCnt = s.rxCnt := fun hi a ha => by
    rcases List.mem_cons.1 ha with rfl | ha
    · exact hi
    · exact (List.pairwise_cons.1 h.order).1 a ha hi
  have hka : (s.step .cycle).kept.rxCntAck = s.inp.rxCnt := rfl
  have hAA : s.kept.rxCntAck = s.rxCnt → s.inp.rxCnt = s.rxCnt := fun hk => by
    rcases h.snaps _ List.mem_cons_self with hs | hs
    · exact hs.1
    · exact absurd hk hs.1
  refine ⟨hc.init, h.cnt, h.pos, hc.earlyPos, h.snaps, h.order, h.vis, h.images, h.iorder, hc.none,
    fun h2 => ?_⟩
  rcases hc.store h2 with ⟨a1, a2, a3, a4⟩ |
    ⟨pre, got, rest, b1, b2, b3, b4, ⟨c1, c2, c3⟩ | ⟨c1, c2, c3⟩⟩
  · exact .inl ⟨a1, a2, fun hk => a3 (hka.trans (hAA hk)), a4⟩
  · exact .inr ⟨pre, got, rest, b1, b2, b3, b4, .inl ⟨c1, c2, c3⟩⟩
  · refine .inr ⟨pre, got, rest, b1, b2, b3, b4, .inr ⟨fun hk => c1 (hka.trans (hAA hk)), c2, c3⟩⟩

theorem LRx.frun {s : Late} (h : s.LRx) (evs : List LateFailEv) : (s.frun evs).LRx := by
  induction evs generalizing s with
  | nil => exact h
  | cons e evs ih =>
    cases e with
    | ev e => exact ih (h.step e)
    | fail => exact ih h.fail

/-- What was written does not matter for what the device gets. -/
theorem run_log (s : Late) (w : List Byte) (evs : List LateEv) :
    (({ s with written := w } : Late).run evs).received = (s.run evs).received ∧
    (({ s with written := w } : Late).run evs).p = (s.run evs).p := by
  induction evs generalizing s w with
  | nil => exact ⟨rfl, rfl⟩
  | cons e evs ih =>
    have := ih (s.step e) (w ++ wrote e)
    rw [← step_log] at this
    exact this

end Spec.Late

/-- C152, sending: whatever cycles fail, however late the images are and whichever of them are lost: what
was written divides into pieces in the order of writing. Those that are kept are what the device has taken
over, what is in flight and what is queued; those that are not kept are the segments the failing cycles
lose. -/
theorem C152_sent (len : ProcessDataLength) (s : Late) (h : s.Initial len) (evs : List LateFailEv) :
    let r := s.frun evs
    ∃ l : Pieces, l.all = r.written ∧
      l.kept = r.received ++ r.inFlight ++ r.p.outData.flatten ∧ l.gone = s.failLost evs := by
  have hv := (Late.FTx.initial h).frun evs
  obtain ⟨l, l1, l2, l3⟩ := hv.pieces
  refine ⟨l ++ [((s.frun evs).p.outData.flatten, true)], ?_, ?_, ?_⟩
  · rw [← l1, (Late.pieces_append _ _).1]
    simp [Pieces.all, Late.lqueued]
  · rw [(Late.pieces_append _ _).2.1, l2]
    simp [Pieces.kept]
  · rw [(Late.pieces_append _ _).2.2, l3]
    simp [Pieces.gone]

/-- C152: each lost segment has at least one byte and fits into a frame, and there are not more of them
than failing cycles. -/
theorem C152_bound (len : ProcessDataLength) (s : Late) (h : s.Initial len) (evs : List LateFailEv) :
    (s.failLost evs).length ≤ LateFailEv.fails evs ∧
    ∀ seg ∈ s.failLost evs, 1 ≤ seg.length ∧ seg.length ≤ capacity len := by
  have hc : capacity len = len.userDataLen := by cases len <;> rfl
  rw [hc]
  exact (Late.FTx.initial h).lost evs

/-- C152, receiving: failing cycles lose and double nothing of what the device sends. -/
theorem C152_received (len : ProcessDataLength) (s : Late) (h : s.Initial len) (evs : List LateFailEv)
    (hc : 2 ≤ (s.frun evs).cycles) :
    ∃ skipped got ahead, (s.frun evs).shown = skipped ++ got ++ ahead ∧
      skipped.length ≤ (s.frun evs).early ∧ ahead.length ≤ 1 ∧
      (s.frun evs).delivered ++ (s.frun evs).p.inData = got.flatten :=
  late_received ((Late.LRx.initial h).frun evs) hc

/-- C152, receiving: before the end of the initialisation nothing is received. -/
theorem C152_early (len : ProcessDataLength) (s : Late) (h : s.Initial len) (evs : List LateFailEv)
    (hc : (s.frun evs).cycles < 2) : (s.frun evs).delivered ++ (s.frun evs).p.inData = [] :=
  ((Late.LRx.initial h).frun evs).none hc

/-- C152, receiving: after any failing cycles one image of the inputs and one cycle are enough for the
application to have everything the device has presented since the end of the initialisation. -/
theorem C152_read (len : ProcessDataLength) (s : Late) (h : s.Initial len) (evs : List LateFailEv)
    (hc : 2 ≤ (s.frun evs).cycles) (hi : (s.frun evs).ins = []) (nearlyFull ready : Bool) :
    let r := (s.frun evs).run [.sample nearlyFull ready, .arrive, .cycle]
    ∃ skipped got, r.shown = skipped ++ got ∧ skipped.length ≤ r.early ∧
      r.delivered ++ r.p.inData = got.flatten :=
  late_read ((Late.LRx.initial h).frun evs) hc hi nearlyFull ready

/-- C152, progress: when the cycles succeed again and nothing is on the way, a number of rounds bounded by
the queue brings all that was written to the device, except for the segments lost before. -/
theorem C152_progress (len : ProcessDataLength) (s : Late) (h : s.Initial len) (evs : List LateFailEv)
    (hi : (s.frun evs).ins = []) (ho : (s.frun evs).outs = []) (flags : List (Bool × Bool))
    (hk : 3 + (s.frun evs).p.outData.length ≤ flags.length) :
    (∃ l : Pieces, l.all = (s.frun evs).written ∧ l.kept = ((s.frun evs).rounds flags).received ∧
      l.gone = s.failLost evs) ∧
    ((s.frun evs).rounds flags).p.outData = [] := by
  have hv := (Late.FTx.initial h).frun evs
  obtain ⟨p1, p2⟩ := late_progress hv.tx hi ho flags hk
  rw [Late.rounds, (Late.run_log _ _ _).1] at p1
  rw [Late.rounds, (Late.run_log _ _ _).2] at p2
  refine ⟨?_, p2⟩
  obtain ⟨l, l1, l2, l3⟩ := C152_sent len s h evs
  exact ⟨l, l1, l2.trans p1.symm, l3⟩

namespace Spec.LatePlant

theorem failLost_ev (t : Late) (es : List LateEv) :
    t.frun (es.map .ev) = t.run es ∧ t.failLost (es.map .ev) = [] ∧
      LateFailEv.fails (es.map .ev) = 0 := by
  induction es generalizing t with
  | nil => exact ⟨rfl, rfl, rfl⟩
  | cons e es ih =>
    obtain ⟨h1, h2, h3⟩ := ih (t.step e)
    exact ⟨h1, by simpa [Late.failLost, Late.failLoses, Late.fstep] using h2, h3⟩

theorem failLost_append (t : Late) (a b : List LateFailEv) :
    t.frun (a ++ b) = (t.frun a).frun b ∧ t.failLost (a ++ b) = t.failLost a ++ (t.frun a).failLost b ∧
      LateFailEv.fails (a ++ b) = LateFailEv.fails a + LateFailEv.fails b := by
  refine ⟨by simp [Late.frun, List.foldl_append], ?_, ?_⟩
  · induction a generalizing t with
    | nil => rfl
    | cons e a ih =>
      have := ih (t.fstep e)
      simp only [List.cons_append, Late.failLost, this, List.append_assoc]
      rfl
  · induction a with
    | nil => simp [LateFailEv.fails]
    | cons e a ih =>
      cases e <;> (simp only [List.cons_append, LateFailEv.fails]; omega)

theorem LSim.fail {oc : Bool} {cfg : CouplerConfig} {j : Nat} {len : ProcessDataLength} {oi oo : Word}
    {s : LatePlant} {t : Late} (h : LSim oc cfg j len oi oo s t) :
    ∃ evs, LSim oc cfg j len oi oo (s.fstep oc cfg j len oi oo .fail) (t.frun evs) ∧
      t.failLost evs = s.failLoses oc cfg j len oi oo .fail ∧ LateFailEv.fails evs ≤ 1 := by
  have stay : s.fstep oc cfg j len oi oo .fail = s → s.failLoses oc cfg j len oi oo .fail = [] →
      ∃ evs, LSim oc cfg j len oi oo (s.fstep oc cfg j len oi oo .fail) (t.frun evs) ∧
      t.failLost evs = s.failLoses oc cfg j len oi oo .fail ∧ LateFailEv.fails evs ≤ 1 := by
    intro h1 h2
    rw [h1, h2]
    exact ⟨[], h, rfl, Nat.zero_le _⟩
  cases hn : s.c.next oc s.inp s.kept with
  | mk c' res =>
  cases res with
  | ok img =>
    exact stay (by simp only [fstep, hn])
      (by
        simp only [failLoses]
        rw [if_neg]
        rintro ⟨-, -, -, e, he⟩
        rw [hn] at he
        cases he)
  | panic =>
    exact stay (by simp only [fstep, hn])
      (by
        simp only [failLoses]
        rw [if_neg]
        rintro ⟨-, -, -, e, he⟩
        rw [hn] at he
        cases he)
  | err er =>
  by_cases hd : Decodable cfg s.inp s.kept
  case neg =>
    exact stay (by simp only [fstep, hn, if_neg hd])
      (by simp only [failLoses]; rw [if_neg (fun hx => hd hx.2.2.1)])
  obtain ⟨p, i, o, g1, g2, g3, -, -, g6, g7⟩ := decoded_serial h.reach hd h.serial
  rw [hn] at g6 g7
  rw [h.inp] at g2
  cases g2
  rw [h.proc] at g1
  cases g1
  rw [h.kept] at g3
  cases g3
  rw [h.write] at g6
  simp only [feed] at g6 g7
  have hst := next_static oc s.c s.inp s.kept
  rw [hn] at hst
  obtain ⟨s1, s2⟩ := Plant.Sim.static hst.1 hst.2 h.serial h.disjoint
  have hI : ReachableFrom oc cfg c' := by
    have := reachable_run h.reach [.next s.inp s.kept]
    simpa [runC, COp.apply, hn] using this
  refine ⟨[.fail], ?_, ?_, Nat.le_refl _⟩
  · simp only [fstep, hn, if_pos hd, Late.frun, List.foldl, Late.fstep]
    exact ⟨hI, s1, s2, g6, g7, h.kept, h.inp, h.ins, h.outs, h.out, h.ack, h.rxCnt, h.avail,
      by simp only [h.cycles], h.written, h.received, h.shown,
      by simp only [h.cycles, h.shown, h.early], h.delivered⟩
  · have hA : s.Acknowledged len oi oo ↔ t.kept.txCnt ≠ (t.inp.txCntAck + 1) % 4 := by
      constructor
      · intro ha
        exact ha _ _ h.inp h.kept
      · intro ha i o hi ho
        rw [h.inp] at hi
        cases hi
        rw [h.kept] at ho
        cases ho
        exact ha
    have hq : s.queue j = t.p.outData := by simp only [queue, h.proc]
    simp only [Late.failLost, Late.failLoses, failLoses, List.append_nil, hq, h.cycles]
    by_cases hx : 2 ≤ s.cycles ∧ t.kept.txCnt ≠ (t.inp.txCntAck + 1) % 4
    · rw [if_pos hx, if_pos ⟨hx.1, hA.2 hx.2, hd, er, by rw [hn]⟩]
    · rw [if_neg hx, if_neg (fun hy => hx ⟨hy.1, hA.1 hy.2.1⟩)]

theorem LSim.frun {oc : Bool} {cfg : CouplerConfig} {j : Nat} {len : ProcessDataLength} {oi oo : Word}
    {s : LatePlant} {t : Late} (h : LSim oc cfg j len oi oo s t) (pevs : List LatePlantFailEv)
    (hu : OnlyUndecodable oc cfg (LatePlantFailEv.others pevs)) :
    ∃ evs, LSim oc cfg j len oi oo (s.frun oc cfg j len oi oo pevs) (t.frun evs) ∧
      t.failLost evs = s.failLost oc cfg j len oi oo pevs ∧
      LateFailEv.fails evs ≤ LatePlantFailEv.fails pevs := by
  induction pevs generalizing s t with
  | nil => exact ⟨[], h, rfl, Nat.le_refl _⟩
  | cons e pevs ih =>
    cases e with
    | ev e =>
      obtain ⟨es, h1⟩ := h.step e fun pi po he => hu pi po (he ▸ List.mem_cons_self)
      obtain ⟨e2, h2, h3, h4⟩ := ih h1 fun pi po he => hu pi po (List.mem_cons_of_mem _ he)
      obtain ⟨f1, f2, f3⟩ := failLost_ev t es
      obtain ⟨k1, k2, k3⟩ := failLost_append t (es.map .ev) e2
      refine ⟨es.map .ev ++ e2, ?_, ?_, ?_⟩
      · rw [k1, f1]; exact h2
      · rw [k2, f1, f2, h3]
        simp [failLost, failLoses, fstep]
      · rw [k3, f3]
        simpa [LatePlantFailEv.fails] using h4
    | fail =>
      obtain ⟨es, h1, l1, m1⟩ := h.fail
      obtain ⟨e2, h2, h3, h4⟩ := ih h1 hu
      obtain ⟨k1, k2, k3⟩ := failLost_append t es e2
      refine ⟨es ++ e2, ?_, ?_, ?_⟩
      · rw [k1]; exact h2
      · rw [k2, l1, h3]
        rfl
      · rw [k3]
        simp only [LatePlantFailEv.fails]
        omega

end Spec.LatePlant

/-- C152 behind a coupler, sending: whatever cycles fail, also because of other modules, however late the
images are and whichever of them are lost: what was written to the module divides into pieces in the order
of writing. Those that are kept are what the device has taken over, what is in flight and what is queued;
those that are not kept are the segments the failing cycles lose, each of them of one frame and at most
one for each cycle that fails although its images can be decoded. -/
theorem C152_coupler_sent (oc : Bool) (cfg : CouplerConfig) (j : Nat) (len : ProcessDataLength)
    (oi oo : Word) (s : LatePlant) (h : s.Initial cfg j len oi oo) (evs : List LatePlantFailEv)
    (hu : LatePlant.OnlyUndecodable oc cfg (LatePlantFailEv.others evs)) :
    let r := s.frun oc cfg j len oi oo evs
    let lost := s.failLost oc cfg j len oi oo evs
    (∃ l : Pieces, l.all = r.written ∧ l.kept = r.received ++ r.inFlight len oo ++ r.queued j ∧
      l.gone = lost) ∧
    (∀ seg ∈ lost, 1 ≤ seg.length ∧ seg.length ≤ capacity len) ∧
    lost.length ≤ LatePlantFailEv.fails evs := by
  obtain ⟨t, ht, hsim⟩ := h.lsim (oc := oc)
  obtain ⟨evs', hs, hl, hf⟩ := hsim.frun evs hu
  obtain ⟨l, l1, l2, l3⟩ := C152_sent len t ht evs'
  obtain ⟨b1, b2⟩ := C152_bound len t ht evs'
  rw [hl] at l3 b1 b2
  refine ⟨⟨l, by rw [l1, hs.written], ?_, l3⟩, b2, le_trans b1 hf⟩
  rw [l2, hs.received]
  simp only [LatePlant.inFlight, LatePlant.queued, Late.inFlight, hs.proc, hs.kept, hs.ack]

/-- C152 behind a coupler, receiving: failing cycles lose and double nothing of what the device sends. -/
theorem C152_coupler_received (oc : Bool) (cfg : CouplerConfig) (j : Nat) (len : ProcessDataLength)
    (oi oo : Word) (s : LatePlant) (h : s.Initial cfg j len oi oo) (evs : List LatePlantFailEv)
    (hu : LatePlant.OnlyUndecodable oc cfg (LatePlantFailEv.others evs))
    (hc : 2 ≤ (s.frun oc cfg j len oi oo evs).cycles) :
    let r := s.frun oc cfg j len oi oo evs
    ∃ skipped got ahead, r.shown = skipped ++ got ++ ahead ∧ skipped.length ≤ r.early ∧
      ahead.length ≤ 1 ∧ r.delivered ++ r.buffered j = got.flatten := by
  obtain ⟨t, ht, hsim⟩ := h.lsim (oc := oc)
  obtain ⟨evs', hs, -, -⟩ := hsim.frun evs hu
  rw [← hs.cycles] at hc
  obtain ⟨a, b, d, h1, h2, h3, h4⟩ := C152_received len t ht evs' hc
  intro r
  refine ⟨a, b, d, by rw [← h1, hs.shown], by rw [← hs.early]; exact h2, h3, ?_⟩
  rw [← h4, hs.delivered]
  simp only [LatePlant.buffered, r, hs.proc]

/-- C152 behind a coupler, receiving: before the end of the initialisation nothing is received. -/
theorem C152_coupler_early (oc : Bool) (cfg : CouplerConfig) (j : Nat) (len : ProcessDataLength)
    (oi oo : Word) (s : LatePlant) (h : s.Initial cfg j len oi oo) (evs : List LatePlantFailEv)
    (hu : LatePlant.OnlyUndecodable oc cfg (LatePlantFailEv.others evs))
    (hc : (s.frun oc cfg j len oi oo evs).cycles < 2) :
    let r := s.frun oc cfg j len oi oo evs
    r.delivered ++ r.buffered j = [] := by
  obtain ⟨t, ht, hsim⟩ := h.lsim (oc := oc)
  obtain ⟨evs', hs, -, -⟩ := hsim.frun evs hu
  rw [← hs.cycles] at hc
  have h1 := C152_early len t ht evs' hc
  intro r
  rw [← h1, hs.delivered]
  simp only [LatePlant.buffered, r, hs.proc]

/-- C152 behind a coupler, progress: when the cycles succeed again and nothing is on the way, a number of
rounds bounded by the queue brings all that was written to the device, except for the segments lost
before. -/
theorem C152_coupler_progress (oc : Bool) (cfg : CouplerConfig) (j : Nat) (len : ProcessDataLength)
    (oi oo : Word) (s : LatePlant) (h : s.Initial cfg j len oi oo) (evs : List LatePlantFailEv)
    (hu : LatePlant.OnlyUndecodable oc cfg (LatePlantFailEv.others evs))
    (hi : (s.frun oc cfg j len oi oo evs).ins = []) (ho : (s.frun oc cfg j len oi oo evs).outs = [])
    (pis : List (List Word))
    (hg : LatePlant.GoodRounds oc j len oi oo (s.frun oc cfg j len oi oo evs) pis)
    (hk : 3 + ((s.frun oc cfg j len oi oo evs).queue j).length ≤ pis.length) :
    let r := (s.frun oc cfg j len oi oo evs).rounds oc j len oi oo pis
    (∃ l : Pieces, l.all = (s.frun oc cfg j len oi oo evs).written ∧ l.kept = r.received ∧
      l.gone = s.failLost oc cfg j len oi oo evs) ∧
    r.queued j = [] := by
  obtain ⟨t, ht, hsim⟩ := h.lsim (oc := oc)
  obtain ⟨evs', hs, hl, -⟩ := hsim.frun evs hu
  obtain ⟨flags, hlen, hx⟩ := LatePlant_rounds hs hi ho hg
  have hti : (t.frun evs').ins = [] := by
    have := hs.ins
    rw [hi] at this
    exact List.map_eq_nil_iff.1 this.symm
  have hto : (t.frun evs').outs = [] := by
    have := hs.outs
    rw [ho] at this
    exact List.map_eq_nil_iff.1 this.symm
  rw [LatePlant.queue, hs.proc] at hk
  obtain ⟨⟨l, l1, l2, l3⟩, p2⟩ := C152_progress len t ht evs' hti hto flags (by rw [hlen]; exact hk)
  refine ⟨⟨l, by rw [l1, hs.written], by rw [l2, hx.received], by rw [l3, hl]⟩, ?_⟩
  simp only [LatePlant.queued, hx.proc, p2, List.flatten_nil]

/-- Two failing cycles, with a cycle between them that sends the second segment: two segments are lost.
The third failing cycle loses nothing, as the device has not acknowledged the second one. -/
def exLateFails : List LateFailEv :=
  [.ev .cycle, .fail, .ev (.write [1#8, 2#8, 3#8, 4#8, 5#8, 6#8, 7#8]), .ev (.write [8#8]),
   .ev (.write [9#8]), .ev (.deliver), .ev .take, .ev (.sample false true), .ev .arrive,
   .fail, .ev .cycle, .ev (.deliver), .fail, .ev .take, .ev (.sample false true), .ev .arrive, .fail]

example : exLate.failLost exLateFails = [[1#8, 2#8, 3#8, 4#8, 5#8, 6#8], [8#8]] ∧
    (exLate.frun exLateFails).received = [7#8] ∧
    (exLate.frun exLateFails).p.outData = [[9#8]] ∧ LateFailEv.fails exLateFails = 4 := by decide

example := C152_sent .EightBytes exLate exLate_initial exLateFails

example := C152_bound .EightBytes exLate exLate_initial exLateFails

example := C152_received .EightBytes exLate exLate_initial exLateFails (by decide)

example := C152_read .EightBytes exLate exLate_initial exLateFails (by decide) (by decide) false true

example := C152_early .EightBytes exLate exLate_initial [.fail, .ev (.read 3)] (by decide)

example := C152_progress .EightBytes exLate exLate_initial exLateFails (by decide) (by decide)
  (List.replicate 4 (false, true)) (by decide)

/-- A failing cycle receives the segment the device presents; the next cycle does not receive it again. -/
example :
    let t := exLate.frun [.ev .cycle, .ev .cycle, .fail, .ev .cycle, .ev (.read 10)]
    t.delivered = [40#8] := by decide

/-- Two cycles, seven bytes written, and a value of the wrong kind for a digital output. -/
def exLateBefore : List LatePlantEv :=
  [.cycle, .cycle, .write [1#8, 2#8, 3#8, 4#8, 5#8, 6#8, 7#8], .other (.setOutput ⟨0, 0⟩ (.bytes []))]

theorem plant_frun_ev {oc : Bool} {cfg : CouplerConfig} {j : Nat} {len : ProcessDataLength}
    {oi oo : Word} (s : LatePlant) (evs : List LatePlantEv) (rest : List LatePlantFailEv) :
    s.frun oc cfg j len oi oo (evs.map .ev ++ rest) =
      (s.run oc j len oi oo evs).frun oc cfg j len oi oo rest ∧
    s.failLost oc cfg j len oi oo (evs.map .ev ++ rest) =
      (s.run oc j len oi oo evs).failLost oc cfg j len oi oo rest := by
  induction evs generalizing s with
  | nil => exact ⟨rfl, rfl⟩
  | cons e evs ih => exact ih (s.step oc j len oi oo e)

/-- The failing cycle of the example: it takes the first six bytes from the queue. -/
theorem exLateFailing :
    let s := exLatePlant.run true 3 .EightBytes 0x0010#16 0x8010#16 exLateBefore
    s.fstep true exCfg 3 .EightBytes 0x0010#16 0x8010#16 .fail =
      { s with c := (s.c.next true exPi exImage).1, cycles := 3 } ∧
    s.failLoses true exCfg 3 .EightBytes 0x0010#16 0x8010#16 .fail =
      [[1#8, 2#8, 3#8, 4#8, 5#8, 6#8]] := by
  have hn : ((exLatePlant.run true 3 .EightBytes 0x0010#16 0x8010#16 exLateBefore).c.next true exPi
      exImage).2 = .err .channelValue := by decide +kernel
  have hi : (exLatePlant.run true 3 .EightBytes 0x0010#16 0x8010#16 exLateBefore).inp = exPi := by
    decide +kernel
  have hk : (exLatePlant.run true 3 .EightBytes 0x0010#16 0x8010#16 exLateBefore).kept = exImage := by
    decide +kernel
  have hc : (exLatePlant.run true 3 .EightBytes 0x0010#16 0x8010#16 exLateBefore).cycles = 2 := by
    decide +kernel
  have hq : (exLatePlant.run true 3 .EightBytes 0x0010#16 0x8010#16 exLateBefore).queue 3 =
      [[1#8, 2#8, 3#8, 4#8, 5#8, 6#8], [7#8]] := by decide +kernel
  generalize exLatePlant.run true 3 .EightBytes 0x0010#16 0x8010#16 exLateBefore = s at *
  refine ⟨?_, ?_⟩
  · simp only [LatePlant.fstep, hi, hk]
    split
    · rename_i c' e hn'
      rw [if_pos (by rw [hi, hk]; exact exImage_decodable), if_neg (by omega), hc, hn']
    · rename_i hx
      exact absurd (show s.c.next true exPi exImage = ((s.c.next true exPi exImage).1, .err .channelValue)
        from Prod.ext rfl hn) (hx _ _)
  · simp only [LatePlant.failLoses, hi, hk, hq]
    rw [if_pos]
    · rfl
    · refine ⟨by omega, fun i o h1 h2 => ?_, by rw [hi, hk]; exact exImage_decodable,
        .channelValue, by rw [hi, hk]; exact hn⟩
      rw [hi, show inFrame .EightBytes 0x0010#16 exPi = some ⟨false, false, 0, 0, false, []⟩ by
        decide] at h1
      rw [hk] at h2
      cases h1
      have : (outFrame .EightBytes 0x8010#16 exImage).map (·.txCnt) = some 0 := by decide
      rw [h2, Option.map_some, Option.some.injEq] at this
      rw [this]
      decide

/-- After the failing cycle the value is gone and the cycles succeed. The device gets the seventh byte,
the six before it are lost. -/
def exLateAfter : List LatePlantFailEv :=
  exLateBefore.map .ev ++ (.fail :: List.map .ev [.deliver, .deliver])

theorem exLateAfter_run :
    let s := exLatePlant.run true 3 .EightBytes 0x0010#16 0x8010#16 exLateBefore
    exLatePlant.frun true exCfg 3 .EightBytes 0x0010#16 0x8010#16 exLateAfter =
      LatePlant.run true 3 .EightBytes 0x0010#16 0x8010#16
        { s with c := (s.c.next true exPi exImage).1, cycles := 3 } [.deliver, .deliver] ∧
    exLatePlant.failLost true exCfg 3 .EightBytes 0x0010#16 0x8010#16 exLateAfter =
      [[1#8, 2#8, 3#8, 4#8, 5#8, 6#8]] := by
  intro s
  obtain ⟨h1, h2⟩ := plant_frun_ev (oc := true) (cfg := exCfg) (j := 3) (len := .EightBytes)
    (oi := 0x0010#16) (oo := 0x8010#16) exLatePlant exLateBefore (.fail :: List.map .ev [.deliver, .deliver])
  obtain ⟨h3, h4⟩ := exLateFailing
  rw [exLateAfter, h1, h2]
  constructor
  · rw [LatePlant.frun, List.foldl_cons, h3]
    rfl
  · rw [LatePlant.failLost, h4]
    rfl

example := C152_coupler_sent true exCfg 3 .EightBytes 0x0010#16 0x8010#16 exLatePlant
  exLatePlant_initial exLateAfter (fun pi po h => by
    simp [exLateAfter, exLateBefore, LatePlantFailEv.others] at h)

/-- Four rounds with the images of the inputs that carry the acknowledgements. -/
example := C152_coupler_progress true exCfg 3 .EightBytes 0x0010#16 0x8010#16 exLatePlant
  exLatePlant_initial exLateAfter (fun pi po h => by
    simp [exLateAfter, exLateBefore, LatePlantFailEv.others] at h)
  (by rw [exLateAfter_run.1]; decide +kernel) (by rw [exLateAfter_run.1]; decide +kernel)
  [exPi, exPi.set 1 0x0020#16, exPi.set 1 0x0020#16, exPi.set 1 0x0020#16]
  (by
    rw [exLateAfter_run.1]
    exact ⟨⟨_, rfl, by decide +kernel⟩, ⟨_, rfl⟩, ⟨_, rfl, by decide +kernel⟩, ⟨_, rfl⟩,
      ⟨_, rfl, by decide +kernel⟩, ⟨_, rfl⟩, ⟨_, rfl, by decide +kernel⟩, ⟨_, rfl⟩, trivial⟩)
  (by rw [exLateAfter_run.1]; decide +kernel)

example : (LatePlant.rounds true 3 .EightBytes 0x0010#16 0x8010#16
    (exLatePlant.frun true exCfg 3 .EightBytes 0x0010#16 0x8010#16 exLateAfter)
    [exPi, exPi.set 1 0x0020#16, exPi.set 1 0x0020#16, exPi.set 1 0x0020#16]).received = [7#8] := by
  rw [exLateAfter_run.1]
  decide +kernel

example := C152_coupler_received true exCfg 3 .EightBytes 0x0010#16 0x8010#16 exLatePlant
  exLatePlant_initial exLateAfter (fun pi po h => by
    simp [exLateAfter, exLateBefore, LatePlantFailEv.others] at h)
  (by rw [exLateAfter_run.1]; decide +kernel)

example := C152_coupler_early true exCfg 3 .EightBytes 0x0010#16 0x8010#16 exLatePlant
  exLatePlant_initial [.ev .cycle, .ev (.read 4)] (fun pi po h => by
    simp [LatePlantFailEv.others] at h)
  (by show (exLatePlant.run true 3 .EightBytes 0x0010#16 0x8010#16 [.cycle, .read 4]).cycles < 2
      decide +kernel)

end Ur20
