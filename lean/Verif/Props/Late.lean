import Verif.Lemmas.Late

/-!
# C129: serial data with late and lost images
-/

namespace Ur20

open Com Spec

/-- C129, sending: however late the images are in both directions, whichever of them are lost or sent
again, and whenever the device looks: the bytes the device has taken over, followed by those of the last
returned image it has not taken over yet and those still queued, are the bytes written. -/
theorem C129_sent (len : ProcessDataLength) (s : Late) (h : s.Initial len) (evs : List LateEv) :
    (s.run evs).received ++ (s.run evs).inFlight ++ (s.run evs).p.outData.flatten =
      (s.run evs).written :=
  ((Late.LTx.initial h).run evs).bytes

/-- Receiving, in any state in which the invariant holds. -/
theorem late_received {s : Late} (h : s.LRx) (hc : 2 ≤ s.cycles) :
    ∃ skipped got ahead, s.shown = skipped ++ got ++ ahead ∧ skipped.length ≤ s.early ∧
      ahead.length ≤ 1 ∧ s.delivered ++ s.p.inData = got.flatten := by
  rcases h.store hc with ⟨-, a2, -, a4⟩ | ⟨pre, got, rest, b1, b2, -, b4, b5⟩
  · refine ⟨s.shown.take s.early, [], s.shown.drop s.early,
      ?_, ?_, ?_, ?_⟩
    · rw [List.append_nil, List.take_append_drop]
    · rw [List.length_take]
      omega
    · rw [List.length_drop]
      omega
    · rw [a2]
      rfl
  · refine ⟨pre, got, rest, b1, b2, ?_, b4⟩
    rcases b5 with ⟨-, -, c⟩ | ⟨-, -, c⟩
    · rw [c]
      simp
    · omega

/-- C129, receiving: after the two initialisation cycles the application gets each segment of the
device exactly once and in order. Only segments presented before the end of the initialisation can be
missing, and the newest one, which it has not seen yet. -/
theorem C129_received (len : ProcessDataLength) (s : Late) (h : s.Initial len) (evs : List LateEv)
    (hc : 2 ≤ (s.run evs).cycles) :
    ∃ skipped got ahead, (s.run evs).shown = skipped ++ got ++ ahead ∧
      skipped.length ≤ (s.run evs).early ∧ ahead.length ≤ 1 ∧
      (s.run evs).delivered ++ (s.run evs).p.inData = got.flatten :=
  late_received ((Late.LRx.initial h).run evs) hc

/-- C129, receiving: before the end of the initialisation nothing is received. -/
theorem C129_early (len : ProcessDataLength) (s : Late) (h : s.Initial len) (evs : List LateEv)
    (hc : (s.run evs).cycles < 2) : (s.run evs).delivered ++ (s.run evs).p.inData = [] :=
  ((Late.LRx.initial h).run evs).none hc

/-- Receiving everything, from any state in which the invariant holds. -/
theorem late_read {s : Late} (hv : s.LRx) (hc : 2 ≤ s.cycles) (hi : s.ins = [])
    (nearlyFull ready : Bool) :
    let r := s.run [.sample nearlyFull ready, .arrive, .cycle]
    ∃ skipped got, r.shown = skipped ++ got ∧ skipped.length ≤ r.early ∧
      r.delivered ++ r.p.inData = got.flatten := by
  intro r
  have hr : r = Late.step { s with inp := s.input nearlyFull ready } .cycle := by
    simp only [r, Late.run, List.foldl_cons, List.foldl_nil, Late.step]
    rw [hi]
    rfl
  have hk : r.kept.rxCntAck = r.rxCnt := by
    have hd : s.p.initState = .done := by rw [hv.init, Late.initStateOf_done]; exact hc
    rw [hr]
    simp only [Late.step]
    rw [next_done _ _ _ hd]
    rfl
  have hc' : 2 ≤ r.cycles := by
    rw [hr]
    simp only [Late.step]
    omega
  rcases (hv.run [.sample nearlyFull ready, .arrive, .cycle]).store hc' with
    ⟨-, a2, a3, -⟩ | ⟨pre, got, rest, b1, b2, -, b4, ⟨-, -, b5⟩ | ⟨b5, -, -⟩⟩
  · exact ⟨r.shown, [], by simp, a3 hk, a2⟩
  · exact ⟨pre, got, by rw [b1, b5, List.append_nil], b2, b4⟩
  · exact absurd hk b5

/-- C129, receiving: whatever was late or lost before, when no image of the inputs is on the way then an
image of the inputs that arrives and a cycle are enough for the application to have everything the
device has presented since the end of the initialisation. -/
theorem C129_read (len : ProcessDataLength) (s : Late) (h : s.Initial len) (evs : List LateEv)
    (hc : 2 ≤ (s.run evs).cycles) (hi : (s.run evs).ins = []) (nearlyFull ready : Bool) :
    let r := (s.run evs).run [.sample nearlyFull ready, .arrive, .cycle]
    ∃ skipped got, r.shown = skipped ++ got ∧ skipped.length ≤ r.early ∧
      r.delivered ++ r.p.inData = got.flatten :=
  late_read ((Late.LRx.initial h).run evs) hc hi nearlyFull ready

theorem lateRounds_cons (fl : Bool × Bool) (flags : List (Bool × Bool)) (s : Late) :
    s.rounds (fl :: flags) = (s.run (Late.round fl)).rounds flags := by
  simp only [Late.rounds, List.flatMap_cons, Late.run, List.foldl_append]

/-- The number of segments the device has not taken over. -/
def lateLeft (s : Late) : Nat :=
  (if s.kept.txCnt = (s.ack + 1) % 4 then 1 else 0) + s.p.outData.length

/-- One round without losses and delays. -/
theorem lateRound_facts (fl : Bool × Bool) (s : Late) (h : s.LTx) (hi : s.ins = []) (ho : s.outs = []) :
    (s.run (Late.round fl)).LTx ∧ (s.run (Late.round fl)).ins = [] ∧ (s.run (Late.round fl)).outs = [] ∧
    (s.run (Late.round fl)).cycles = s.cycles + 1 ∧ (s.run (Late.round fl)).written = s.written ∧
    lateLeft (s.run (Late.round fl)) ≤ lateLeft s ∧
    (2 ≤ s.cycles → lateLeft (s.run (Late.round fl)) ≤ lateLeft s - 1) := by
  have hA := h.ack
  have hr : s.run (Late.round fl) = Late.step { s with
      p := (s.p.next (s.input fl.1 fl.2) s.kept).1
      kept := (s.p.next (s.input fl.1 fl.2) s.kept).2
      inp := s.input fl.1 fl.2
      out := (s.p.next (s.input fl.1 fl.2) s.kept).2
      cycles := s.cycles + 1
      early := if s.cycles < 2 then s.shown.length else s.early } .take := by
    simp only [Late.run, Late.round, List.foldl_cons, List.foldl_nil, Late.step, hi, ho,
      List.nil_append]
  refine ⟨h.run _, ?_⟩
  rw [hr]
  have hx : (s.input fl.1 fl.2).txCntAck = s.ack := rfl
  rcases Late.late_next s.p (s.input fl.1 fl.2) s.kept hA h.data with
    ⟨e1, e2, e3, e4⟩ | ⟨d0, e1, e2, e3, e4⟩
  · simp only [Late.step, lateLeft, e1]
    by_cases hk : s.kept.txCnt = (s.ack + 1) % 4
    · rw [if_pos hk]
      simp only [e1, e3]
      rw [if_neg (by omega)]
      rw [if_pos hk]
      exact ⟨hi, ho, trivial, trivial, by omega, by omega⟩
    · rw [if_neg hk]
      simp only [e1, e3]
      rw [if_neg hk]
      refine ⟨hi, ho, trivial, trivial, Nat.le_refl _, fun hc => ?_⟩
      have hd : s.p.initState = .done := by rw [h.init, Late.initStateOf_done]; exact hc
      cases hq : s.p.outData with
      | nil => simp
      | cons c cs =>
        exfalso
        have := nextTx_send s.p (s.input fl.1 fl.2) s.kept c cs hq (by
          rw [hx, incCnt_eq _ hA]
          exact fun e => hk e.symm)
        rw [next_done _ _ _ hd, (nextRx_frame _ _).1, this, hq] at e3
        exact absurd (congrArg List.length e3) (by simp)
  · simp only [Late.step, lateLeft, e2, e4, List.length_cons]
    rw [hx] at e1 e2
    simp only [hx]
    rw [if_pos trivial, if_neg e1]
    simp only [e2]
    rw [if_neg (by omega)]
    exact ⟨hi, ho, trivial, trivial, by omega, by omega⟩

theorem lateRounds_left (flags : List (Bool × Bool)) (s : Late) (h : s.LTx) (hi : s.ins = []) (ho : s.outs = [])
    (hc : 2 ≤ s.cycles) :
    (s.rounds flags).LTx ∧ (s.rounds flags).written = s.written ∧
      lateLeft (s.rounds flags) ≤ lateLeft s - flags.length := by
  induction flags generalizing s with
  | nil => exact ⟨h, rfl, by simp [Late.rounds, Late.run]⟩
  | cons fl flags ih =>
    obtain ⟨a1, a2, a3, a4, a5, -, a7⟩ := lateRound_facts fl s h hi ho
    obtain ⟨b1, b2, b3⟩ := ih _ a1 a2 a3 (by omega)
    rw [lateRounds_cons, List.length_cons]
    have := a7 hc
    exact ⟨b1, b2.trans a5, by omega⟩

/-- Progress from any state in which the invariant holds. -/
theorem late_progress {t : Late} (hv : t.LTx) (hi : t.ins = []) (ho : t.outs = [])
    (flags : List (Bool × Bool)) (hk : 3 + t.p.outData.length ≤ flags.length) :
    (t.rounds flags).received = t.written ∧ (t.rounds flags).p.outData = [] := by
  match flags, hk with
  | [], hk => exact absurd hk (by simp)
  | [_], hk => exact absurd hk (by simp; omega)
  | f1 :: f2 :: flags, hk =>
  simp only [List.length_cons] at hk
  obtain ⟨a1, a2, a3, a4, a5, a6, -⟩ := lateRound_facts f1 t hv hi ho
  obtain ⟨b1, b2, b3, b4, b5, b6, -⟩ := lateRound_facts f2 _ a1 a2 a3
  obtain ⟨c1, c2, c3⟩ := lateRounds_left flags _ b1 b2 b3 (by omega)
  rw [lateRounds_cons, lateRounds_cons]
  have hl : lateLeft t ≤ 1 + t.p.outData.length := by
    unfold lateLeft
    split <;> omega
  generalize hu : ((t.run (Late.round f1)).run (Late.round f2)).rounds flags = u at c1 c2 c3
  have h0 : lateLeft u = 0 := by omega
  unfold lateLeft at h0
  have hq : u.p.outData = [] := List.length_eq_zero_iff.1 (by omega)
  refine ⟨?_, hq⟩
  have hb := c1.bytes
  have hf : u.inFlight = [] := by
    unfold Late.inFlight
    split
    · rename_i hx
      rw [if_pos hx] at h0
      omega
    · rfl
  rw [hf, Late.lqueued, hq, List.flatten_nil, List.append_nil, List.append_nil] at hb
  rw [hb, c2, b5, a5]

/-- C129, progress: whatever was late or lost before, when nothing is on the way any more then two rounds
for the initialisation, one for the segment of the last returned image and one for each queued segment
deliver everything that was written. -/
theorem C129_progress (len : ProcessDataLength) (s : Late) (h : s.Initial len) (evs : List LateEv)
    (hi : (s.run evs).ins = []) (ho : (s.run evs).outs = []) (flags : List (Bool × Bool))
    (hk : 3 + (s.run evs).p.outData.length ≤ flags.length) :
    ((s.run evs).rounds flags).received = (s.run evs).written ∧
    ((s.run evs).rounds flags).p.outData = [] :=
  late_progress ((Late.LTx.initial h).run evs) hi ho flags hk

/-- The records of the system are what they claim to be. -/
theorem C129_written (s : Late) (evs : List LateEv) :
    (s.run evs).written = s.written ++ (evs.map fun | .write b => b | _ => []).flatten := by
  induction evs generalizing s with
  | nil => simp [Late.run]
  | cons e evs ih =>
    rw [show s.run (e :: evs) = (s.step e).run evs from rfl, ih]
    have hw : (s.step e).written = s.written ++ (match e with | .write b => b | _ => []) := by
      cases e <;> simp only [Late.step, List.append_nil] <;> (repeat' split) <;> rfl
    rw [hw]
    simp

/-- A concrete initial state: the device presents a segment, and the image of the outputs has the
number after the last one it has taken over. -/
def exLate : Late :=
  { p := MessageProcessor.new .EightBytes, kept := ⟨false, false, false, 3, 1, false, []⟩
    inp := ⟨true, false, 0, 2, true, [40#8]⟩, ins := [], outs := []
    out := ⟨false, false, false, 3, 1, false, []⟩, ack := 2, rxCnt := 0, avail := true, cycles := 0
    written := [], received := [], shown := [[40#8]], early := 0, delivered := [] }

theorem exLate_initial : exLate.Initial .EightBytes :=
  ⟨rfl, rfl, rfl, ⟨false, true, rfl⟩, rfl, rfl, by decide, by decide, rfl, by decide⟩

/-- The image of the third cycle, with the first segment, is lost, and cycles go on with old inputs.
It is sent again and arrives late; the next segment is sent only after that. -/
example :
    let t := exLate.run [.write [1#8, 2#8, 3#8, 4#8, 5#8, 6#8, 7#8], .take, .cycle, .cycle,
      .sample false true, .arrive, .cycle, .loseOut 2, .cycle, .cycle, .sample false true, .deliver,
      .deliver, .deliver, .take, .arrive, .cycle]
    t.received = [1#8, 2#8, 3#8, 4#8, 5#8, 6#8] ∧ t.inFlight = [] ∧ t.p.outData = [[7#8]] := by
  decide

/-- Segments of the device with late acknowledgements: the one presented during the initialisation is
received too, as it is still there, and none is received twice. -/
example :
    let t := exLate.run [.cycle, .cycle, .cycle, .cycle, .deliver, .post [41#8], .post [42#8],
      .sample false true, .hide, .arrive, .cycle, .loseOut 0, .cycle, .deliver, .deliver, .deliver,
      .deliver, .post [43#8], .read 10, .sample false true, .sample false true, .arrive, .cycle,
      .arrive, .cycle, .read 10]
    t.delivered = [40#8, 41#8, 43#8] ∧ t.shown = [[40#8], [41#8], [43#8]] ∧ t.early = 1 := by decide

example : ((exLate.run [.write [1#8, 2#8, 3#8, 4#8, 5#8, 6#8, 7#8, 8#8]]).rounds
    (List.replicate 5 (false, true))).received =
    [1#8, 2#8, 3#8, 4#8, 5#8, 6#8, 7#8, 8#8] := by decide

/-- The application has to start with the image of the device: with one of zeros the device, which
takes over the empty segment of its own image, ignores the first segment that is sent. -/
example :
    let t := Late.run { exLate with kept := ⟨false, false, false, 0, 0, false, []⟩ }
      ([.write [1#8], .take, .cycle, .cycle, .cycle, .deliver, .deliver, .deliver, .take] ++
        Late.round (false, true) ++ Late.round (false, true))
    t.received = [] ∧ t.inFlight = [] ∧ t.p.outData = [] ∧ t.written = [1#8] := by decide

end Ur20
